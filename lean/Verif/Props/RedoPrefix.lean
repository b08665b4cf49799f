import Verif.Props.PrefixKey
import Verif.Props.RedoEffect
/-!
# C98: updates of tables whose primary key covers only the first bytes of a column

In the undo record of an update the key is the prefix, and the number of a column counts the stored fields: the prefix, DB_TRX_ID, DB_ROLL_PTR, and then
all columns of the table (trx0rec.cc, trx_undo_page_report_modify: `dict_index_get_n_unique` fields, then `upd_field_get_pos_no` numbers).  The tool knows
one field less (see C97): it takes the column of each number for the one after it (mlog.go:298-306), and compares the key column with the prefix
(parse.go:540-549).
-/

namespace Verif.Props
open Verif Spec

/-! ## What is logged -/

/-- An update of one column of the row whose key begins with `key`.  `next`: the name of the column after it, if there is one. -/
structure PrefixChange where
  db : Bytes
  table : Bytes
  column : Bytes
  next : Option Bytes
  old : Bytes
  keyColumn : Bytes
  len : Nat
  key : Bytes

/-- the row has the key -/
def PrefixChange.here (pc : PrefixChange) (r : NamedRow) : Bool :=
  match r pc.keyColumn with
  | .text x => x.take pc.len == pc.key
  | _ => false

/-- The update took the tables from `S` to `S'`. -/
def PrefixChange.Changed (pc : PrefixChange) (S S' : Tables) : Prop :=
  (∀ r ∈ S pc.db pc.table, pc.here r = true → r pc.column = .text pc.old) ∧
    ∃ new : Bytes, (pc.column = pc.keyColumn → new.take pc.len = pc.key) ∧
      S' = fun d t => if d = pc.db ∧ t = pc.table then (S d t).map fun r => if pc.here r then setAll [(pc.column, .text new)] r else r else S d t

/-- The record `u` is that of such an update of the table `t`, whose columns are VARCHAR. -/
structure PrefixUndo (crs : List ColumnRow) (irs : List IndexRow) (frs : List FieldRow) (t : TableRow) (u : Undo) (pc : PrefixChange) : Prop where
  id : t.id = u.tableId
  name : t.name = pc.db ++ b! "/" ++ pc.table
  index : ∃ r, PrefixKey irs frs (columnsOf crs t.id) t.id r pc.len
  names : ((columnsOf crs t.id).map (·.name)).Nodup ∧ ∀ c ∈ columnsOf crs t.id, c.name ∉ internalNames
  types : ∀ c ∈ columnsOf crs t.id, c.ftype = 12
  keyColumn : ((columnsOf crs t.id)[0]?).map (·.name) = some pc.keyColumn
  kind : u.kind = 12
  key : u.key = [pc.key] ∧ pc.key.length ≤ pc.len
  field : ∃ p, u.fields = [(3 + p, some pc.old)] ∧ ((columnsOf crs t.id)[p]?).map (·.name) = some pc.column ∧
    ((columnsOf crs t.id)[p + 1]?).map (·.name) = pc.next

/-- What the elements of the log record: such an update, or what C58 says. -/
inductive AnyLogs (zone : Nat → Int) (trs : List TableRow) (crs : List ColumnRow) (irs : List IndexRow) (frs : List FieldRow) :
    Item → Option (PrefixChange ⊕ Change) → Prop
  | usual {it ch} : Logs zone trs crs irs frs it ch →
      (∀ b sp pg u, it = .record b sp pg (.undoInsert u) → ∀ t ∈ trs, t.id = u.tableId → ∀ r n, ¬ PrefixKey irs frs (columnsOf crs t.id) t.id r n) →
      AnyLogs zone trs crs irs frs it (ch.map .inr)
  | update {b sp pg u t pc} : t ∈ trs → PrefixUndo crs irs frs t u pc → AnyLogs zone trs crs irs frs (.record b sp pg (.undoInsert u)) (some (.inl pc))

/-- the table is one of those asked for -/
def PrefixChange.wanted (a : FromRedo) (pc : PrefixChange) : Bool := (a.db == [] || pc.db == a.db) && (a.table == [] || pc.table == a.table)

def anyWanted (a : FromRedo) : PrefixChange ⊕ Change → Bool := Sum.elim (PrefixChange.wanted a) (Wanted a)

/-- the update took the tables from `S` to `S'` -/
def AnyChanged (cols : Bytes → Bytes → List Column) (pk : Bytes → Bytes → List Bytes) (ff : FloatFmt) (S S' : Tables) : PrefixChange ⊕ Change → Prop :=
  Sum.elim (fun pc => pc.Changed S S') fun ch => Changed cols pk ff ch S S'

/-- **C98**, as stated: if the log has one update of the tables asked for and it took the tables from `S` to `S'`, the output executed on `S'` gives
`S` again, whether that table has such a primary key or other tables in the log have one. -/
def C98_statement : Prop :=
  ∀ (env : Env) (fs : Bytes → File) (a : FromRedo) (spare : Nat) (sys : Bytes) (trs : List TableRow) (crs : List ColumnRow)
    (irs : List IndexRow) (frs : List FieldRow) (names : List Bytes) (parts : List (List Bytes)) (its : List Item)
    (es : List (Option (PrefixChange ⊕ Change))) (e : PrefixChange ⊕ Change) (sv : Server) (cols : Bytes → Bytes → List Column)
    (pk : Bytes → Bytes → List Bytes) (S S' : Tables),
    a.sysFile = .ok sys → Dictionary sys trs crs irs frs → names ≠ [] → (∀ n ∈ names, 44 ∉ n) → a.redoFile = commaList names →
    All2 (fun chunks n => ∃ content, fs n = .ok content ∧ IsLogFile chunks content) parts names →
    parts.flatten.flatten = its.flatMap Item.enc → (∀ it ∈ its, it.Fits) → (∀ t ∈ trs, UsualKeys irs frs crs t.id) →
    All2 (AnyLogs env.zone trs crs irs frs) its es → SameColumns trs crs cols → (∀ ch, some (.inr ch) ∈ es → ReadsChange sv env.ff ch) →
    (es.filterMap id).filter (anyWanted a) = [e] → AnyChanged cols pk env.ff S S' e →
    ∃ lines, fromRedoFile env fs a spare [] = .ok () lines ∧ execUpdates sv cols (stdout lines) S' = some S

/-! ## What the tool makes of it -/

/-- the change the tool sees: one of the next column, and of the row whose key column equals the prefix -/
def PrefixChange.seen (pc : PrefixChange) (next : Bytes) : Change :=
  ⟨pc.db, pc.table, [(next, some (.varchar pc.old))], [(pc.keyColumn, .varchar pc.key)]⟩

/-- Conditions under which the tool finds its way: the number of the update and the id of the table are below 2^32 (C41), the updated column is not the
last one, the table name is not given with another database (C43). -/
inductive PrefixFollowed (a : FromRedo) (trs : List TableRow) (crs : List ColumnRow) (irs : List IndexRow) (frs : List FieldRow) :
    Item → Option (PrefixChange × Bytes) → Prop
  | other {it} : (∀ b sp pg u, it ≠ .record b sp pg (.undoInsert u)) → (∀ cfg, InSync cfg it) → PrefixFollowed a trs crs irs frs it none
  | unknown {b sp pg u} : (∀ t ∈ trs, t.id ≠ u.tableId) → u.undoNo < 2 ^ 32 → u.tableId < 2 ^ 32 →
      PrefixFollowed a trs crs irs frs (.record b sp pg (.undoInsert u)) none
  | update {b sp pg u t pc next} : t ∈ trs → PrefixUndo crs irs frs t u pc → pc.next = some next → u.undoNo < 2 ^ 32 → u.tableId < 2 ^ 32 →
      Trimmed irs t.id → (pc.wanted a = false → pc.table ≠ a.table) → PrefixFollowed a trs crs irs frs (.record b sp pg (.undoInsert u)) (some (pc, next))

theorem wanted_seen (a : FromRedo) (pc : PrefixChange) (next : Bytes) : Wanted a (pc.seen next) = pc.wanted a := rfl

theorem prefix_keyed {crs : List ColumnRow} {irs : List IndexRow} {frs : List FieldRow} {t : TableRow} {u : Undo} {pc : PrefixChange}
    (h : PrefixUndo crs irs frs t u pc) : ∃ c rest, columnsOf crs t.id = c :: rest ∧ c.name = pc.keyColumn ∧
      Keyed crs irs frs t (c :: trxColumn t.id 1 :: rollColumn t.id 2 :: rest) [c.name] := by
  obtain ⟨r, hk⟩ := h.index
  have hk' := hk
  obtain ⟨h1, h2, h3, h4, h5, -, -, h6, c, rest, h7, h8⟩ := hk
  refine ⟨c, rest, h7, ?_, ⟨r, ⟨h1.1, h1.2.1, h3, fun x hx hxt => (h6 x hx hxt).imp (fun e => e) fun h => ⟨?_, h⟩⟩, h4, ?_⟩, ?_, h.names⟩
  · have := h.keyColumn
    rw [h7] at this
    exact Option.some.inj this
  · rcases h1.2.2 x hx hxt with e | e
    · subst e
      omega
    · exact e.1
  · unfold fieldsOf
    rw [h8]
    rfl
  · have hn := h.names.1
    rw [h7] at hk' hn ⊢
    exact prefix_layout hk' hn

/-- The tool follows the log, and sees other changes than those that happened. -/
theorem prefix_followed {env : Env} {a : FromRedo} {trs : List TableRow} {crs : List ColumnRow} {irs : List IndexRow} {frs : List FieldRow}
    {it : Item} {e : Option (PrefixChange × Bytes)} (h : PrefixFollowed a trs crs irs frs it e) :
    Followed env a trs crs irs frs it (e.map fun e => e.1.seen e.2) := by
  cases h with
  | other h1 h2 => exact .other h1 h2
  | unknown h1 h2 h3 => exact .unknown h1 h2 h3
  | @update b sp pg u t pc next ht hu hnext hno htid htrim hsel =>
    obtain ⟨c, rest, hc, hcn, hk⟩ := prefix_keyed hu
    obtain ⟨p, hf, -, hp⟩ := hu.field
    obtain ⟨r, hpk⟩ := hu.index
    have hh : Handled irs frs crs t.id := prefix_handled hpk
    rw [hnext, hc, List.getElem?_cons_succ] at hp
    obtain ⟨c', hc', hcn'⟩ := Option.map_eq_some_iff.mp hp
    have htypes := hu.types
    rw [hc] at htypes
    have hkv : KeyValues env.zone (columnsOf crs t.id) [c.name] [.varchar pc.key] :=
      .cons ⟨⟨c, by rw [hc]; exact List.mem_cons_self, rfl, htypes c List.mem_cons_self⟩, trivial⟩ .nil
    have hov : OldValues env.zone (c :: trxColumn t.id 1 :: rollColumn t.id 2 :: rest) [(3 + p, some (.varchar pc.old))]
        [(next, some (.varchar pc.old))] := by
      refine .cons ⟨c', ?_, by rw [hcn'], ?_⟩ .nil
      · show (c :: trxColumn t.id 1 :: rollColumn t.id 2 :: rest)[3 + p]? = some c'
        rw [Nat.add_comm]
        exact hc'
      · rintro v ⟨⟩
        exact ⟨htypes c' (List.mem_cons_of_mem _ (List.mem_of_getElem? hc')), trivial⟩
    have := Followed.update (a := a) (env := env) (b := b) (sp := sp) (pg := pg) ht hu.id hu.name hk hkv hov
      ⟨hu.kind, by rw [hu.key.1]; rfl, by rw [hf]; rfl⟩ hno htid hh htrim (fun v hv => by cases List.mem_singleton.mp hv; exact ⟨trivial, rfl⟩)
      (fun e he v hv => by cases List.mem_singleton.mp he; cases hv; trivial) hsel (fun _ => ⟨?_, ?_⟩)
    · rw [hcn] at this
      exact this
    · intro v hv
      cases List.mem_singleton.mp hv
      exact ⟨trivial, rfl, nofun⟩
    · intro e he v hv
      cases List.mem_singleton.mp he
      cases hv
      exact ⟨trivial, rfl, nofun⟩

theorem prefix_all2 {env : Env} {a : FromRedo} {trs : List TableRow} {crs : List ColumnRow} {irs : List IndexRow} {frs : List FieldRow}
    {its : List Item} {es : List (Option (PrefixChange × Bytes))} (h : All2 (PrefixFollowed a trs crs irs frs) its es) :
    All2 (Followed env a trs crs irs frs) its (es.map fun e => e.map fun e => e.1.seen e.2) := by
  induction h with
  | nil => exact .nil
  | cons h _ ih => exact .cons (prefix_followed h) ih

theorem prefix_wanted (a : FromRedo) (es : List (Option (PrefixChange × Bytes))) :
    ((es.map fun e => e.map fun e => e.1.seen e.2).filterMap id).filter (Wanted a) =
      ((es.filterMap id).filter fun e => e.1.wanted a).map fun e => e.1.seen e.2 := by
  induction es with
  | nil => rfl
  | cons e es ih =>
    cases e with
    | none => exact ih
    | some e =>
      show (e.1.seen e.2 :: (es.map _).filterMap id).filter (Wanted a) = ((e :: es.filterMap id).filter _).map _
      rw [List.filter_cons, List.filter_cons, wanted_seen]
      split
      · rw [List.map_cons, ← ih]
      · exact ih

/-- no name and no value needs quoting -/
structure PrefixPlain (pc : PrefixChange) (next : Bytes) : Prop where
  names : 96 ∉ pc.db ∧ 96 ∉ pc.table ∧ 96 ∉ pc.keyColumn ∧ 96 ∉ next
  values : Raw pc.old ∧ Raw pc.key

theorem prefix_plainly (ff : FloatFmt) {pc : PrefixChange} {next : Bytes} (h : PrefixPlain pc next) : Plainly ff (pc.seen next) where
  sets := ⟨_, rfl, h.names.2.2.2, by rintro v ⟨⟩; exact h.values.1⟩
  key := fun k hk => by
    cases List.mem_singleton.mp hk
    exact ⟨h.names.2.2.1, h.values.2⟩
  names := ⟨h.names.1, h.names.2.1⟩

theorem seen_typed {env : Env} {a : FromRedo} {trs : List TableRow} {crs : List ColumnRow} {irs : List IndexRow} {frs : List FieldRow}
    {cols : Bytes → Bytes → List Column} (hcols : SameColumns trs crs cols) {it : Item} {pc : PrefixChange} {next : Bytes}
    (h : PrefixFollowed a trs crs irs frs it (some (pc, next))) : TypedChange cols (pc.seen next) := by
  refine followed_typed hcols (prefix_followed (env := env) h) ?_
  cases h with
  | @update b sp pg u t _ _ ht hu hnext _ _ _ _ =>
    intro s hs
    cases List.mem_singleton.mp hs
    show next ∈ (cols pc.db pc.table).map (·.name)
    rw [hcols t ht pc.db pc.table hu.name]
    obtain ⟨p, -, -, hp⟩ := hu.field
    rw [hnext] at hp
    obtain ⟨c, hc, hcn⟩ := Option.map_eq_some_iff.mp hp
    exact List.mem_map.mpr ⟨c, List.mem_of_getElem? hc, hcn⟩

/-- **What is printed and what it does:** one statement for every update of the tables asked for, which assigns the old value to the column after the
updated one, in the rows whose key column equals the prefix. -/
theorem C98_seen (env : Env) (fs : Bytes → File) (a : FromRedo) (spare : Nat) (sys : Bytes) (trs : List TableRow) (crs : List ColumnRow)
    (irs : List IndexRow) (frs : List FieldRow) (names : List Bytes) (parts : List (List Bytes)) (its : List Item)
    (es : List (Option (PrefixChange × Bytes))) (sv : Server) (cols : Bytes → Bytes → List Column)
    (hsys : a.sysFile = .ok sys) (hdict : Dictionary sys trs crs irs frs) (hne : names ≠ []) (hn : ∀ n ∈ names, 44 ∉ n)
    (ha : a.redoFile = commaList names) (hp : All2 (fun chunks n => ∃ content, fs n = .ok content ∧ IsLogFile chunks content) parts names)
    (hs : parts.flatten.flatten = its.flatMap Item.enc) (hf : ∀ it ∈ its, it.Fits)
    (harr : ∀ t ∈ trs, UsualKeys irs frs crs t.id) (hfl : All2 (PrefixFollowed a trs crs irs frs) its es)
    (hplain : ∀ e, some e ∈ es → e.1.wanted a = true → PrefixPlain e.1 e.2)
    (hah : Ahead its) (hlen : (its.flatMap Item.enc).length < 2 ^ 32) (hcols : SameColumns trs crs cols) :
    ∃ lines, fromRedoFile env fs a spare [] = .ok () lines ∧
      All2 (Undoes env.ff) lines (((es.filterMap id).filter fun e => e.1.wanted a).map fun e => e.1.seen e.2) ∧
      ∀ T, execUpdates sv cols (stdout lines) T =
        some (((es.filterMap id).filter fun e => e.1.wanted a).foldl (fun S e => (e.1.seen e.2).undo env.ff S) T) := by
  obtain ⟨lines, h1, h2⟩ := C58_command_partial env fs a spare sys trs crs irs frs names parts its _ hsys hdict hne hn ha hp hs hf harr
    (prefix_all2 hfl) (by
      intro ch hch hw
      obtain ⟨e, he, hch⟩ := List.mem_map.mp hch
      obtain ⟨e, rfl, rfl⟩ := Option.map_eq_some_iff.mp hch
      exact prefix_plainly _ (hplain e he hw)) hah hlen []
  rw [prefix_wanted] at h2
  refine ⟨lines, by simpa using h1, h2, fun T => ?_⟩
  rw [exec_lines h2 (sv := sv) (cols := cols) ?_ ?_ T, List.foldl_map]
  · intro ch hch
    obtain ⟨e, he, rfl⟩ := List.mem_map.mp hch
    obtain ⟨x, hx, hxe⟩ := List.mem_filterMap.mp (List.mem_filter.mp he).1
    have hxe : x = some e := hxe
    subst hxe
    obtain ⟨it, -, hit⟩ := all2_exists_left hfl _ hx
    exact seen_typed (env := env) hcols hit
  · intro ch hch
    obtain ⟨e, he, rfl⟩ := List.mem_map.mp hch
    refine ⟨fun s hs => ?_, fun k hk => ?_⟩
    · cases List.mem_singleton.mp hs
      trivial
    · cases List.mem_singleton.mp hk
      trivial

theorem seen_undo (ff : FloatFmt) (pc : PrefixChange) (next : Bytes) (S : Tables) : (pc.seen next).undo ff S = fun d t =>
    if d = pc.db ∧ t = pc.table then
      (S d t).map fun r => if r pc.keyColumn == .text pc.key then setAll [(next, .text pc.old)] r else r
    else S d t := by
  have : ∀ r, hasAll ((pc.seen next).keys ff) r = (r pc.keyColumn == .text pc.key) := by
    intro r
    show ((r pc.keyColumn == .text pc.key && Orig.text pc.key != .null) && true) = _
    rw [Bool.and_true, show (Orig.text pc.key != Orig.null) = true from by simp [bne_iff_ne], Bool.and_true]
  unfold Change.undo updateRows
  simp only [this]
  rfl

/-- **Values longer than the prefix:** if in no row of the table the key column equals the key prefix, the output changes nothing. -/
theorem C98_unchanged (env : Env) (fs : Bytes → File) (a : FromRedo) (spare : Nat) (sys : Bytes) (trs : List TableRow) (crs : List ColumnRow)
    (irs : List IndexRow) (frs : List FieldRow) (names : List Bytes) (parts : List (List Bytes)) (its : List Item)
    (es : List (Option (PrefixChange × Bytes))) (sv : Server) (cols : Bytes → Bytes → List Column) (T : Tables)
    (hsys : a.sysFile = .ok sys) (hdict : Dictionary sys trs crs irs frs) (hne : names ≠ []) (hn : ∀ n ∈ names, 44 ∉ n)
    (ha : a.redoFile = commaList names) (hp : All2 (fun chunks n => ∃ content, fs n = .ok content ∧ IsLogFile chunks content) parts names)
    (hs : parts.flatten.flatten = its.flatMap Item.enc) (hf : ∀ it ∈ its, it.Fits)
    (harr : ∀ t ∈ trs, UsualKeys irs frs crs t.id) (hfl : All2 (PrefixFollowed a trs crs irs frs) its es)
    (hplain : ∀ e, some e ∈ es → e.1.wanted a = true → PrefixPlain e.1 e.2)
    (hah : Ahead its) (hlen : (its.flatMap Item.enc).length < 2 ^ 32) (hcols : SameColumns trs crs cols)
    (hlong : ∀ e, some e ∈ es → e.1.wanted a = true → ∀ r ∈ T e.1.db e.1.table, ∀ x, r e.1.keyColumn = .text x → e.1.len < x.length) :
    ∃ lines, fromRedoFile env fs a spare [] = .ok () lines ∧ lines.length = ((es.filterMap id).filter fun e => e.1.wanted a).length ∧
      execUpdates sv cols (stdout lines) T = some T := by
  obtain ⟨lines, h1, h2, h3⟩ := C98_seen env fs a spare sys trs crs irs frs names parts its es sv cols hsys hdict hne hn ha hp hs hf harr hfl hplain hah
    hlen hcols
  refine ⟨lines, h1, by rw [all2_length h2, List.length_map], ?_⟩
  rw [h3]
  have : ∀ e ∈ (es.filterMap id).filter fun e => e.1.wanted a, (e.1.seen e.2).undo env.ff T = T := by
    intro e he
    obtain ⟨h4, h5⟩ := List.mem_filter.mp he
    obtain ⟨x, hx, hxe⟩ := List.mem_filterMap.mp h4
    have hxe : x = some e := hxe
    subst hxe
    obtain ⟨it, -, hit⟩ := all2_exists_left hfl _ hx
    have hk : e.1.key.length ≤ e.1.len := by
      obtain ⟨pc, next⟩ := e
      cases hit with
      | update _ hu _ _ _ _ _ => exact hu.key.2
    rw [seen_undo]
    funext d t
    split
    · rename_i hdt
      obtain ⟨rfl, rfl⟩ := hdt
      conv => rhs; rw [← List.map_id (T e.1.db e.1.table)]
      refine List.map_congr_left fun r hr => if_neg fun hb => ?_
      have := hlong e hx h5 r hr e.1.key (eq_of_beq hb)
      omega
    · rfl
  generalize ((es.filterMap id).filter fun e => e.1.wanted a) = l at this
  congr 1
  induction l with
  | nil => rfl
  | cons e l ih =>
    rw [List.foldl_cons, this e List.mem_cons_self]
    exact ih fun x hx => this x (List.mem_cons_of_mem _ hx)

/-- **C98, exactly:** the output restores the table only if there is nothing to restore. -/
theorem C98_never (env : Env) (fs : Bytes → File) (a : FromRedo) (spare : Nat) (sys : Bytes) (trs : List TableRow) (crs : List ColumnRow)
    (irs : List IndexRow) (frs : List FieldRow) (names : List Bytes) (parts : List (List Bytes)) (its : List Item)
    (es : List (Option (PrefixChange × Bytes))) (pc : PrefixChange) (next : Bytes) (sv : Server) (cols : Bytes → Bytes → List Column) (S S' : Tables)
    (hsys : a.sysFile = .ok sys) (hdict : Dictionary sys trs crs irs frs) (hne : names ≠ []) (hn : ∀ n ∈ names, 44 ∉ n)
    (ha : a.redoFile = commaList names) (hp : All2 (fun chunks n => ∃ content, fs n = .ok content ∧ IsLogFile chunks content) parts names)
    (hs : parts.flatten.flatten = its.flatMap Item.enc) (hf : ∀ it ∈ its, it.Fits)
    (harr : ∀ t ∈ trs, UsualKeys irs frs crs t.id) (hfl : All2 (PrefixFollowed a trs crs irs frs) its es)
    (hplain : ∀ e, some e ∈ es → e.1.wanted a = true → PrefixPlain e.1 e.2)
    (hah : Ahead its) (hlen : (its.flatMap Item.enc).length < 2 ^ 32) (hcols : SameColumns trs crs cols)
    (hone : ((es.filterMap id).filter fun e => e.1.wanted a) = [(pc, next)]) (hch : pc.Changed S S')
    (hr : ∃ lines, fromRedoFile env fs a spare [] = .ok () lines ∧ execUpdates sv cols (stdout lines) S' = some S) : S' = S := by
  obtain ⟨lines, h1, -, h3⟩ := C98_seen env fs a spare sys trs crs irs frs names parts its es sv cols hsys hdict hne hn ha hp hs hf harr hfl hplain hah
    hlen hcols
  obtain ⟨lines', h4, h5⟩ := hr
  rw [h1] at h4
  injection h4 with _ h4
  subst h4
  rw [h3, hone] at h5
  have h5 : (pc.seen next).undo env.ff S' = S := Option.some.inj h5
  have hcol : pc.column ≠ next := by
    have hm : (pc, next) ∈ (es.filterMap id).filter fun e => e.1.wanted a := by rw [hone]; exact List.mem_cons_self
    obtain ⟨x, hx, hxe⟩ := List.mem_filterMap.mp (List.mem_filter.mp hm).1
    have hxe : x = some (pc, next) := hxe
    subst hxe
    obtain ⟨it, -, hit⟩ := all2_exists_left hfl _ hx
    cases hit with
    | @update _ _ _ u t _ _ _ hu hnext _ _ _ _ =>
      obtain ⟨p, -, e1, e2⟩ := hu.field
      rw [hnext] at e2
      intro e
      rw [← e, ← e1, ← List.getElem?_map, ← List.getElem?_map] at e2
      have hlt : p < ((columnsOf crs t.id).map (·.name)).length := by
        rw [← List.getElem?_map] at e1
        exact (List.getElem?_eq_some_iff.mp e1).1
      have := (List.getElem?_inj hlt hu.names.1).mp e2.symm
      omega
  obtain ⟨hold, new, -, rfl⟩ := hch
  rw [seen_undo] at h5
  funext d t
  have h6 := congrFun (congrFun h5 d) t
  split at h6
  · rename_i hdt
    rw [if_pos hdt]
    rw [List.map_map] at h6
    obtain ⟨rfl, rfl⟩ := hdt
    conv => rhs; rw [← List.map_id (S pc.db pc.table)]
    refine List.map_congr_left fun r hr => ?_
    have h7 := List.map_inj_left.mp (h6.trans (List.map_id (S pc.db pc.table)).symm) r hr
    split
    · rename_i hhere
      have h8 := congrFun h7 pc.column
      simp only [Function.comp_apply, hhere, if_true, id] at h8
      have h9 : setAll [(pc.column, Orig.text new)] r pc.column = r pc.column := by
        rw [← h8]
        split
        · rw [setAll_other (ss := [(next, Orig.text pc.old)]) _ (by simpa using hcol)]
        · rfl
      funext n
      by_cases hn : n = pc.column
      · rw [hn]; exact h9
      · exact setAll_other r (by simpa using hn)
    · rfl
  · rename_i hdt
    rw [if_neg hdt]

/-! ## Other tables -/

/-- What the tool can follow: the logs of C58, and such updates of tables that are not asked for. -/
inductive AnyFollowed (env : Env) (a : FromRedo) (trs : List TableRow) (crs : List ColumnRow) (irs : List IndexRow) (frs : List FieldRow) :
    Item → Option (PrefixChange ⊕ Change) → Prop
  | usual {it ch} : Followed env a trs crs irs frs it ch → AnyFollowed env a trs crs irs frs it (ch.map .inr)
  | update {it pc next} : PrefixFollowed a trs crs irs frs it (some (pc, next)) → pc.wanted a = false →
      AnyFollowed env a trs crs irs frs it (some (.inl pc))

theorem any_followed {env : Env} {a : FromRedo} {trs : List TableRow} {crs : List ColumnRow} {irs : List IndexRow} {frs : List FieldRow}
    {its : List Item} {es : List (Option (PrefixChange ⊕ Change))} (h : All2 (AnyFollowed env a trs crs irs frs) its es) :
    ∃ chs, All2 (Followed env a trs crs irs frs) its chs ∧ ((chs.filterMap id).filter (Wanted a)).map Sum.inr = (es.filterMap id).filter (anyWanted a) ∧
      ∀ ch, some ch ∈ chs → some (.inr ch) ∈ es ∨ ∃ pc next, ch = PrefixChange.seen pc next := by
  induction h with
  | nil => exact ⟨[], .nil, rfl, nofun⟩
  | cons h _ ih =>
    obtain ⟨chs, h1, h2, h3⟩ := ih
    cases h with
    | @usual ch h =>
      refine ⟨ch :: chs, .cons h h1, ?_, ?_⟩
      · cases ch with
        | none => exact h2
        | some ch =>
          show ((ch :: chs.filterMap id).filter (Wanted a)).map Sum.inr = (Sum.inr ch :: _).filter (anyWanted a)
          rw [List.filter_cons, List.filter_cons]
          show _ = if Wanted a ch = true then _ else _
          split
          · rw [List.map_cons, h2]
          · exact h2
      · intro x hx
        rcases List.mem_cons.mp hx with rfl | hx
        · exact .inl List.mem_cons_self
        · exact (h3 x hx).imp (List.mem_cons_of_mem _) fun h => h
    | @update pc next h hw =>
      refine ⟨some (pc.seen next) :: chs, .cons (prefix_followed h) h1, ?_, ?_⟩
      · show ((pc.seen next :: chs.filterMap id).filter (Wanted a)).map Sum.inr = (Sum.inl pc :: _).filter (anyWanted a)
        rw [List.filter_cons, List.filter_cons, wanted_seen, hw]
        show _ = if pc.wanted a = true then _ else _
        rw [hw]
        exact h2
      · intro x hx
        rcases List.mem_cons.mp hx with hx | hx
        · exact .inr ⟨pc, next, Option.some.inj hx⟩
        · exact (h3 x hx).imp (List.mem_cons_of_mem _) fun h => h

/-- **C98 (partial):** true if the table asked for has no such primary key, for the logs of C58, and updates in them of other tables, not of the last
column.  (Missing: the tables with such keys, whose rows are never restored, see `C98_never`; what C58 misses; updates of the last column, after
which the tool loses its place in the log, see C45.) -/
theorem C98_others_partial (env : Env) (fs : Bytes → File) (a : FromRedo) (spare : Nat) (sys : Bytes) (trs : List TableRow) (crs : List ColumnRow)
    (irs : List IndexRow) (frs : List FieldRow) (names : List Bytes) (parts : List (List Bytes)) (its : List Item)
    (es : List (Option (PrefixChange ⊕ Change))) (ch : Change) (sv : Server) (cols : Bytes → Bytes → List Column)
    (pk : Bytes → Bytes → List Bytes) (S S' : Tables)
    (hsys : a.sysFile = .ok sys) (hdict : Dictionary sys trs crs irs frs) (hne : names ≠ []) (hn : ∀ n ∈ names, 44 ∉ n)
    (ha : a.redoFile = commaList names) (hp : All2 (fun chunks n => ∃ content, fs n = .ok content ∧ IsLogFile chunks content) parts names)
    (hs : parts.flatten.flatten = its.flatMap Item.enc) (hf : ∀ it ∈ its, it.Fits)
    (harr : ∀ t ∈ trs, UsualKeys irs frs crs t.id) (hfl : All2 (AnyFollowed env a trs crs irs frs) its es)
    (hplain : Plainly env.ff ch) (hah : Ahead its) (hlen : (its.flatMap Item.enc).length < 2 ^ 32) (hcols : SameColumns trs crs cols)
    (hreads : ∀ ch, some (.inr ch) ∈ es → ReadsChange sv env.ff ch) (hone : (es.filterMap id).filter (anyWanted a) = [.inr ch])
    (hch : Changed cols pk env.ff ch S S') :
    ∃ lines, fromRedoFile env fs a spare [] = .ok () lines ∧ execUpdates sv cols (stdout lines) S' = some S := by
  obtain ⟨chs, h1, h2, h3⟩ := any_followed hfl
  rw [hone] at h2
  have h2 : (chs.filterMap id).filter (Wanted a) = [ch] := by
    generalize (chs.filterMap id).filter (Wanted a) = l at h2
    match l, h2 with
    | [x], h2 =>
      injection h2 with h2
      injection h2 with h2
      rw [h2]
  refine C74_once_partial env fs a spare sys trs crs irs frs names parts its chs sv cols pk S S' hsys hdict hne hn ha hp hs hf harr h1 ?_ hah hlen hcols ?_
    (by rw [h2]; exact .cons hch .nil) (by rw [h2]; exact List.pairwise_singleton _ _)
  · intro x hx hw
    have : x ∈ (chs.filterMap id).filter (Wanted a) := List.mem_filter.mpr ⟨List.mem_filterMap.mpr ⟨_, hx, rfl⟩, hw⟩
    rw [h2] at this
    cases List.mem_singleton.mp this
    exact hplain
  · intro x hx
    rcases h3 x hx with h | ⟨pc, next, rfl⟩
    · exact hreads x h
    · refine ⟨fun s hs => ?_, fun k hk => ?_⟩
      · cases List.mem_singleton.mp hs
        trivial
      · cases List.mem_singleton.mp hk
        trivial

/-! ## Counterexample

`CREATE TABLE t (a VARCHAR(20) NOT NULL, b VARCHAR(20) NOT NULL, PRIMARY KEY (a(2)))`; in the row ('alpha', 'beta') `a` is changed to 'alps'. -/

def keyUndo : Undo := ⟨12, 1, 3, 20, 0, 2 ^ 33, 2 ^ 50, [b! "al"], [(3, some (b! "alpha"))], []⟩

def keyLog : List Item := [.record false 5 3 (.bytes2 120 77), .record true 0 300 (.undoInsert keyUndo), .record true 5 3 (.bytes2 120 77)]

def keyChange : PrefixChange := ⟨b! "shop", b! "t", b! "a", some (b! "b"), b! "alpha", b! "a", 2, b! "al"⟩

def keyDisk (_ : Bytes) : File := .ok (logFile (keyLog.flatMap Item.enc))

def keyRedo : FromRedo := { sysFile := .ok keySys, redoFile := b! "ib_logfile0", db := b! "shop", table := [] }

def keyCols : Bytes → Bytes → List Column := fun _ _ => columnsOf keyColumns 20

def keyRow (a b : Bytes) : NamedRow := fun n => if n = b! "a" then .text a else if n = b! "b" then .text b else .null

set_option maxRecDepth 4000 in
theorem keyLog_length : (keyLog.flatMap Item.enc).length ≤ 200 := by decide

theorem key_disk : All2 (fun chunks n => ∃ content, keyDisk n = .ok content ∧ IsLogFile chunks content) [[keyLog.flatMap Item.enc]] [b! "ib_logfile0"] :=
  .cons ⟨_, rfl, logFile_is _ (by have := keyLog_length; omega)⟩ .nil

theorem keyUndo_fits : keyUndo.Fits := by
  refine ⟨by decide, by decide, by decide, by decide, by decide, by decide, ?_, by decide⟩
  intro f hf
  cases List.mem_singleton.mp hf
  refine ⟨by decide, ?_⟩
  rintro v ⟨⟩
  decide

theorem keyLog_fits : ∀ it ∈ keyLog, it.Fits := by
  intro it hit
  simp only [keyLog, List.mem_cons, List.not_mem_nil, or_false] at hit
  rcases hit with rfl | rfl | rfl
  · exact ⟨by decide, by decide, by show 77 < 2 ^ 32; decide⟩
  · exact ⟨by decide, by decide, keyUndo_fits⟩
  · exact ⟨by decide, by decide, by show 77 < 2 ^ 32; decide⟩

theorem key_undo : PrefixUndo keyColumns (shopIndexes idKey) keyFields ⟨b! "shop/t", 20, 5⟩ keyUndo keyChange where
  id := rfl
  name := rfl
  index := ⟨_, key_prefix⟩
  names := by decide
  types := by decide
  keyColumn := by decide
  kind := rfl
  key := ⟨rfl, by decide⟩
  field := ⟨0, rfl, by decide, by decide⟩

theorem key_followed : All2 (PrefixFollowed keyRedo shopTables keyColumns (shopIndexes idKey) keyFields) keyLog [none, some (keyChange, b! "b"), none] :=
  .cons (.other nofun fun _ => trivial) (.cons (.update (t := ⟨b! "shop/t", 20, 5⟩) (by decide) key_undo rfl (by decide) (by decide) shop_trimmed
    (by decide)) (.cons (.other nofun fun _ => trivial) .nil))

theorem key_logged (zone : Nat → Int) :
    All2 (AnyLogs zone shopTables keyColumns (shopIndexes idKey) keyFields) keyLog [none, some (.inl keyChange), none] :=
  .cons (.usual (ch := none) (.other nofun) nofun) (.cons (.update (t := ⟨b! "shop/t", 20, 5⟩) (by decide) key_undo)
    (.cons (.usual (ch := none) (.other nofun) nofun) .nil))

theorem key_plain : PrefixPlain keyChange (b! "b") where
  names := by decide
  values := ⟨raw_plain (by decide) (by decide), raw_plain (by decide) (by decide)⟩

set_option maxRecDepth 4000 in
theorem key_ahead : Ahead keyLog := ⟨by decide, by decide, by decide, trivial⟩

theorem key_cols : SameColumns shopTables keyColumns keyCols := by
  intro t ht db table _
  cases List.mem_singleton.mp ht
  rfl

theorem keyRow_ne {a a' b : Bytes} (h : a ≠ a') : keyRow a b ≠ keyRow a' b := by
  intro e
  have e := congrFun e (b! "a")
  unfold keyRow at e
  rw [if_pos rfl, if_pos rfl] at e
  exact h (by injection e)

theorem key_changed : keyChange.Changed (shopState [keyRow (b! "alpha") (b! "beta")]) (shopState [keyRow (b! "alps") (b! "beta")]) := by
  refine ⟨?_, b! "alps", fun _ => by decide, ?_⟩
  · intro r hr _
    have hr : r ∈ [keyRow (b! "alpha") (b! "beta")] := by simpa [shopState, keyChange] using hr
    cases List.mem_singleton.mp hr
    rfl
  · have hh : keyChange.here (keyRow (b! "alpha") (b! "beta")) = true := by decide
    funext d t
    unfold shopState
    show (if d = b! "shop" ∧ t = b! "t" then _ else _) = if d = b! "shop" ∧ t = b! "t" then _ else _
    by_cases hdt : d = b! "shop" ∧ t = b! "t"
    · rw [if_pos hdt, if_pos hdt, if_pos hdt, List.map_singleton, if_pos hh]
      congr 1
      funext n
      show keyRow (b! "alps") (b! "beta") n = if n = b! "a" then .text (b! "alps") else keyRow (b! "alpha") (b! "beta") n
      unfold keyRow
      split <;> rfl
    · rw [if_neg hdt, if_neg hdt, if_neg hdt]

/-- C98 is false of the code: `update t set b='alpha' where a='al'` is printed. -/
theorem C98_false : ¬ C98_statement := by
  intro h
  have h1 := h testEnv keyDisk keyRedo 0 keySys shopTables keyColumns (shopIndexes idKey) keyFields [b! "ib_logfile0"] [[keyLog.flatMap Item.enc]] keyLog _
    (.inl keyChange) anyServer keyCols (fun _ _ => [b! "a"]) _ _ rfl key_dictionary (by decide) (by decide) rfl key_disk (by simp) keyLog_fits key_usual
    (key_logged _) key_cols (by
      intro ch hch
      simp at hch) rfl key_changed
  have h2 := C98_never testEnv keyDisk keyRedo 0 keySys shopTables keyColumns (shopIndexes idKey) keyFields [b! "ib_logfile0"] [[keyLog.flatMap Item.enc]]
    keyLog _ keyChange (b! "b") anyServer keyCols _ _ rfl key_dictionary (by decide) (by decide) rfl key_disk (by simp) keyLog_fits key_usual key_followed
    (by
      intro e he _
      have : e = (keyChange, b! "b") := by simpa using he
      subst this
      exact key_plain) key_ahead (by have := keyLog_length; omega) key_cols rfl key_changed h1
  have h3 := congrFun (congrFun h2 (b! "shop")) (b! "t")
  have h3 : [keyRow (b! "alps") (b! "beta")] = [keyRow (b! "alpha") (b! "beta")] := h3
  exact keyRow_ne (by decide) (List.singleton_inj.mp h3)

/-- the printed statement changes nothing -/
example (env : Env) (spare : Nat) (sv : Server) : ∃ lines, fromRedoFile env keyDisk keyRedo spare [] = .ok () lines ∧ lines.length = 1 ∧
    execUpdates sv keyCols (stdout lines) (shopState [keyRow (b! "alps") (b! "beta")]) = some (shopState [keyRow (b! "alps") (b! "beta")]) := by
  refine C98_unchanged env keyDisk keyRedo spare keySys shopTables keyColumns (shopIndexes idKey) keyFields [b! "ib_logfile0"] [[keyLog.flatMap Item.enc]]
    keyLog _ sv keyCols _ rfl key_dictionary (by decide) (by decide) rfl key_disk (by simp) keyLog_fits key_usual key_followed
    (by
      intro e he _
      have : e = (keyChange, b! "b") := by simpa using he
      subst this
      exact key_plain) key_ahead (by have := keyLog_length; omega) key_cols ?_
  intro e he _ r hr x hx
  have : e = (keyChange, b! "b") := by simpa using he
  subst this
  have hr : r ∈ [keyRow (b! "alps") (b! "beta")] := by simpa [shopState, keyChange] using hr
  cases List.mem_singleton.mp hr
  have hx : Orig.text (b! "alps") = .text x := hx
  injection hx with hx
  subst hx
  decide

/-! ## Two tables -/

def mixTables : List TableRow := [⟨b! "shop/t", 20, 5⟩, ⟨b! "shop/k", 21, 6⟩]
def mixColumns : List ColumnRow := shopColumns ++ [⟨21, 0, b! "a", 12, 590095, 20⟩, ⟨21, 1, b! "b", 12, 590095, 20⟩]
def mixIndexes : List IndexRow := [⟨20, 30, b! "PRIMARY", 1, 3⟩, ⟨21, 31, b! "PRIMARY", 1, 3⟩]
def mixFields : List FieldRow := [⟨30, 0, b! "id"⟩, ⟨31, 2, b! "a"⟩]
def mixSys : Bytes := writeSystem mixTables mixColumns mixIndexes mixFields

theorem mix_dictionary : Dictionary mixSys mixTables mixColumns mixIndexes mixFields where
  file := system_written _ _ _ _
    { tables := by decide, columns := by decide, indexes := by decide, fields := by decide, onTables := by decide, onColumns := by decide,
      onIndexes := by decide, onFields := by decide }
  indexes := by decide
  ids := by decide
  names := ⟨by decide, fun t ht => by
    simp only [mixTables, List.mem_cons, List.not_mem_nil, or_false] at ht
    rcases ht with rfl | rfl
    · exact .inr ⟨b! "shop", b! "t", by decide, by decide, by decide, by decide⟩
    · exact .inr ⟨b! "shop", b! "k", by decide, by decide, by decide, by decide⟩⟩

theorem mix_usual : ∀ t ∈ mixTables, UsualKeys mixIndexes mixFields mixColumns t.id := by
  intro t ht
  simp only [mixTables, List.mem_cons, List.not_mem_nil, or_false] at ht
  rcases ht with rfl | rfl
  · exact .inr ⟨⟨20, 30, b! "PRIMARY", 1, 3⟩, by decide, .inr ⟨by decide, by decide, by decide, by decide⟩⟩
  · exact .inr ⟨⟨21, 31, b! "PRIMARY", 1, 3⟩, by decide, .inr ⟨by decide, by decide, by decide, by decide⟩⟩

def mixUndo : Undo := { keyUndo with tableId := 21 }
def mixLog : List Item :=
  [.record true 0 300 (.undoInsert mixUndo), .record true 0 300 (.undoInsert (shopUndo 12 (b! "bob"))), .record true 5 3 (.bytes2 120 77)]
def mixChange : PrefixChange := { keyChange with table := b! "k" }
def mixDisk (_ : Bytes) : File := .ok (logFile (mixLog.flatMap Item.enc))
def mixRedo : FromRedo := { sysFile := .ok mixSys, redoFile := b! "ib_logfile0", db := b! "shop", table := b! "t" }
def mixCols (_ table : Bytes) : List Column := columnsOf mixColumns (if table = b! "t" then 20 else 21)

set_option maxRecDepth 4000 in
theorem mixLog_length : (mixLog.flatMap Item.enc).length ≤ 200 := by decide

theorem mixLog_fits : ∀ it ∈ mixLog, it.Fits := by
  intro it hit
  simp only [mixLog, List.mem_cons, List.not_mem_nil, or_false] at hit
  rcases hit with rfl | rfl | rfl
  · refine ⟨by decide, by decide, by decide, by decide, by decide, by decide, by decide, by decide, keyUndo_fits.2.2.2.2.2.2.1, by decide⟩
  · exact ⟨by decide, by decide, shop_undo_fits (.inl rfl) 12 20 (.inr rfl) (.inl rfl)⟩
  · exact ⟨by decide, by decide, by show 77 < 2 ^ 32; decide⟩

theorem mix_undo : PrefixUndo mixColumns mixIndexes mixFields ⟨b! "shop/k", 21, 6⟩ mixUndo mixChange where
  id := rfl
  name := rfl
  index := ⟨⟨21, 31, b! "PRIMARY", 1, 3⟩, by decide, by decide, by decide, by decide, by decide, by decide, by decide, by decide, _, _, rfl, rfl⟩
  names := by decide
  types := by decide
  keyColumn := by decide
  kind := rfl
  key := ⟨rfl, by decide⟩
  field := ⟨0, rfl, by decide, by decide⟩

theorem mix_keyed : Keyed mixColumns mixIndexes mixFields ⟨b! "shop/t", 20, 5⟩ (shopLayout 20) [b! "id"] where
  index := ⟨⟨20, 30, b! "PRIMARY", 1, 3⟩, by decide, by decide, by decide⟩
  layout := .key (r := ⟨20, 30, b! "PRIMARY", 1, 3⟩) (by decide) (by decide) (by decide) (by decide)
  names := by decide

theorem mix_followed (env : Env) : All2 (AnyFollowed env mixRedo mixTables mixColumns mixIndexes mixFields) mixLog
    [some (.inl mixChange), some (.inr (shopChange (b! "bob"))), none] := by
  refine .cons (.update (next := b! "b") (.update (t := ⟨b! "shop/k", 21, 6⟩) (by decide) mix_undo rfl (by decide) (by decide) ?_ (by decide)) (by decide))
    (.cons (.usual (ch := some (shopChange (b! "bob"))) ?_) (.cons (.usual (ch := none) (.other nofun fun _ => trivial)) .nil))
  · intro x hx _
    simp only [mixIndexes, List.mem_cons, List.not_mem_nil, or_false] at hx
    rcases hx with rfl | rfl <;> decide
  · refine .update (t := ⟨b! "shop/t", 20, 5⟩) (names := [b! "id"]) (keys := [.int 4 7]) (olds := [(3, some (.varchar (b! "bob")))]) (by decide) rfl rfl
      mix_keyed (.cons ⟨⟨shopId, by decide, rfl, rfl, by decide, by decide, rfl, rfl⟩, by decide, by decide, by decide⟩ .nil)
      (shop_old_values env (b! "bob")) ⟨rfl, rfl, rfl⟩ (by decide) (by decide)
      ⟨⟨20, 30, b! "PRIMARY", 1, 3⟩, by decide, by decide, .inr ⟨by decide, by decide, shopId, [shopName], by decide, by decide⟩⟩ ?_ ?_ ?_ ?_ ?_
    · intro x hx _
      simp only [mixIndexes, List.mem_cons, List.not_mem_nil, or_false] at hx
      rcases hx with rfl | rfl <;> decide
    · intro v hv
      cases List.mem_singleton.mp hv
      exact ⟨trivial, rfl⟩
    · intro e he v hv
      cases List.mem_singleton.mp he
      cases hv
      trivial
    · intro h
      have : Wanted mixRedo ⟨b! "shop", b! "t", [(b! "name", some (.varchar (b! "bob")))], [b! "id"].zip [.int 4 7]⟩ = true := rfl
      rw [this] at h
      cases h
    · intro _
      refine ⟨?_, ?_⟩
      · intro v hv
        cases List.mem_singleton.mp hv
        exact ⟨trivial, rfl, nofun⟩
      · intro e he v hv
        cases List.mem_singleton.mp he
        cases hv
        exact ⟨trivial, rfl, nofun⟩

/-- The hypotheses of `C98_others_partial`: a row of `t` is restored, though the log has an update of a table with such a key before it. -/
example (env : Env) (spare : Nat) (sv : Server) : ∃ lines, fromRedoFile env mixDisk mixRedo spare [] = .ok () lines ∧
    execUpdates sv mixCols (stdout lines) (shopState [shopRow 7 (b! "zoe")]) = some (shopState [shopRow 7 (b! "bob")]) := by
  have hrow : ∀ r : NamedRow, hasAll ((shopChange (b! "bob")).keys env.ff) r = hasAll ((shopChange2 7 (b! "bob")).keys env.ff) r := fun _ => rfl
  have hch := shopState_changed env.ff 7 (b! "bob") (b! "zoe") [shopRow 7 (b! "bob")] [shopRow 7 (b! "zoe")] (by simp [shopRow_has]) (by
    simp [shopRow_has, shopRow_set])
  refine C98_others_partial env mixDisk mixRedo spare mixSys mixTables mixColumns mixIndexes mixFields [b! "ib_logfile0"] [[mixLog.flatMap Item.enc]] mixLog _
    (shopChange (b! "bob")) sv mixCols (fun _ _ => [b! "id"]) _ _ rfl mix_dictionary (by decide) (by decide) rfl
    (.cons ⟨_, rfl, logFile_is _ (by have := mixLog_length; omega)⟩ .nil) (by simp) mixLog_fits mix_usual (mix_followed env)
    (shopChange2_plainly env (.inl rfl) (.inl rfl)) ?_ (by have := mixLog_length; omega) ?_ ?_ rfl ⟨rfl, ?_, hch.old, hch.new⟩
  · exact ⟨by decide, by decide, by decide, trivial⟩
  · intro t ht db table hname
    simp only [mixTables, List.mem_cons, List.not_mem_nil, or_false] at ht
    have hsp := mix_dictionary.names.2 t (by simpa [mixTables] using ht)
    rw [hname] at hsp
    have hsp := tableName_pair hsp
    rw [← hname] at hsp
    rcases ht with rfl | rfl
    · cases hsp
      rfl
    · cases hsp
      rfl
  · intro ch hch
    have : ch = shopChange (b! "bob") := by simpa using hch
    subst this
    exact ⟨fun s hs => by cases List.mem_singleton.mp hs; trivial, fun s hs => by cases List.mem_singleton.mp hs; trivial⟩
  · intro s hs
    cases List.mem_singleton.mp hs
    exact ⟨by show b! "name" ∈ (columnsOf mixColumns 20).map (·.name); decide, by show b! "name" ∉ [b! "id"]; decide⟩

end Verif.Props
