import Verif.Proofs.Typed
import Verif.Proofs.RedoUndoMore
import Verif.Props.RedoSync
import Verif.Props.RedoLoop
import Verif.Spec.Update
/-!
# C42: undo records of updates become UPDATE statements
-/

namespace Verif.Props
open Verif Spec

/-- **C42**, as stated, for a record at any place of a stream and values that need no quoting (which is C44's subject). -/
def C42_statement : Prop := ∃ sep ∈ [b! ", ", b! " and "], ∀ cfg (s : Stream) (u : Undo) (table : Table) (names : List Bytes) (keys : List TVal)
    (olds : List (Nat × Option TVal)) (pre suf : Bytes) (out : Out),
  u.Fits → UpdateOf u keys olds → cfg.tables.get? u.tableId = some table → NameSelected cfg.dbName cfg.tableName table → HasKey table names → KeyTyped table names keys →
  OldTyped table olds → (∀ v ∈ keys, v.Fits cfg.env.zone ∧ 39 ∉ v.lit cfg.env.ff ∧ 92 ∉ v.lit cfg.env.ff) →
  (∀ e ∈ olds, ∀ v, e.2 = some v → v.Fits cfg.env.zone ∧ 39 ∉ v.lit cfg.env.ff ∧ 92 ∉ v.lit cfg.env.ff) →
  s.data = pre ++ (beEnc 2 u.enc.length ++ u.enc) ++ suf → 5 ≤ suf.length →
  ∃ r, mlogUndoInsert cfg s ⟨pre.length, out⟩ = .ok r ⟨(pre ++ (beEnc 2 u.enc.length ++ u.enc)).length,
    out ++ [updateText sep table.db table.name (setsOf cfg.env.ff table olds) (condsOf cfg.env.ff names keys)]⟩

/-! ## The primary key -/

theorem getPrimaryKey_skip (ixs : List (Nat × Index)) (fs : List IdxField)
    (h : ∀ j ∈ ixs, trimSpace j.2.name ≠ b! "PRIMARY" ∧ trimSpace j.2.name ≠ b! "GEN_CLUST_INDEX") : getPrimaryKey ixs fs = fs := by
  induction ixs generalizing fs with
  | nil => rfl
  | cons j ixs ih =>
    have := h j List.mem_cons_self
    rw [getPrimaryKey]
    rw [if_neg (by rintro (h | h); exact this.1 h; exact this.2 h)]
    exact ih fs fun j hj => h j (List.mem_cons_of_mem _ hj)

theorem getPrimaryKey_append (a b : List (Nat × Index)) (fs : List IdxField)
    (h : ∀ j ∈ a, trimSpace j.2.name ≠ b! "PRIMARY" ∧ trimSpace j.2.name ≠ b! "GEN_CLUST_INDEX") :
    getPrimaryKey (a ++ b) fs = getPrimaryKey b fs := by
  induction a generalizing fs with
  | nil => rfl
  | cons j ixs ih =>
    have := h j List.mem_cons_self
    rw [List.cons_append, getPrimaryKey]
    rw [if_neg (by rintro (h | h); exact this.1 h; exact this.2 h)]
    exact ih fs fun j hj => h j (List.mem_cons_of_mem _ hj)

theorem key_names {table : Table} {names : List Bytes} (h : HasKey table names) : (getPrimaryKey table.indexes []).map (·.name) = names := by
  obtain ⟨a, ix, b, h1, h2, h3, h4⟩ := h
  rw [h1, getPrimaryKey_append _ _ _ (fun j hj => h4 j (List.mem_append_left _ hj)), getPrimaryKey]
  have e : trimSpace (b! "PRIMARY") = b! "PRIMARY" := by decide
  rw [h2, e, if_pos (Or.inl rfl), if_neg (by decide), getPrimaryKey_skip _ _ (fun j hj => h4 j (List.mem_append_right _ hj))]
  exact h3

theorem no_key {table : Table} (h : NoKey table) : getPrimaryKey table.indexes [] = [⟨0, b! "DB_ROW_ID"⟩] := by
  obtain ⟨a, ix, b, h1, h2, h4⟩ := h
  rw [h1, getPrimaryKey_append _ _ _ (fun j hj => h4 j (List.mem_append_left _ hj)), getPrimaryKey]
  have e : trimSpace (b! "GEN_CLUST_INDEX") = b! "GEN_CLUST_INDEX" := by decide
  rw [h2, e, if_pos (Or.inr rfl), if_pos rfl, getPrimaryKey_skip _ _ (fun j hj => h4 j (List.mem_append_right _ hj))]

theorem named_lookup {table : Table} {name : Bytes} {c : Column} (h : Named table name c) : getColumnsByName table name = c := by
  obtain ⟨a, b, h1, h2, h3⟩ := h
  unfold getColumnsByName
  rw [h1, List.find?_append, List.find?_eq_none.mpr (fun x hx => by simpa using h3 x hx), Option.none_or, List.find?_cons_of_pos (by simpa using h2)]
  rfl

/-! ## Values -/

/-- the values printed correctly -/
def Printable (v : TVal) : Prop := TVal.Decodable v ∧ TVal.isHex v = false ∧ ∀ w n, v ≠ .bit w n

/-- keys must not be DATETIMEs of MySQL 5.6, because the decoder reads three bytes more than it is given -/
def KeyDecodable (v : TVal) : Prop := TVal.Decodable v ∧ TVal.lookahead v = 0

theorem shown_lit {v : TVal} (h : Printable v) (ff : FloatFmt) : TVal.shown ff v = v.lit ff := by
  obtain ⟨_, h1, h2⟩ := h
  cases v <;> first | exact absurd rfl (h2 _ _) | rfl | cases h1

/-- what is printed: as `setsOf` and `condsOf`, but with binary values in hexadecimal and bits as numbers -/
def shownSets (ff : FloatFmt) (table : Table) (olds : List (Nat × Option TVal)) : List (Bytes × Option Bytes) :=
  olds.map fun e => (nameAt table e.1, e.2.map (TVal.shown ff))
def shownConds (ff : FloatFmt) (names : List Bytes) (keys : List TVal) : List (Bytes × Bytes) := names.zip (keys.map (TVal.shown ff))

/-- a printed list of conditions -/
def PkText (ff : FloatFmt) : List PkVal → List (Bytes × Bytes) → Prop := All2 fun p c => (p.name, fmtV ff p.value) = c
def UpdText (ff : FloatFmt) : List UpdCol → List (Bytes × Option Bytes) → Prop :=
  All2 fun p c => (p.name, if p.value = .nil then none else some (fmtV ff p.value)) = c

theorem joinAnd_eq (xs : List Bytes) : joinAnd xs = joinSep (b! " and ") xs := by
  induction xs with
  | nil => rfl
  | cons x xs ih =>
    cases xs with
    | nil => rfl
    | cons y ys => rw [joinAnd, joinSep, ih] <;> exact nofun

theorem setText_eq (ff : FloatFmt) (c : UpdCol) : setText ff c = assignText (c.name, if c.value = .nil then none else some (fmtV ff c.value)) := by
  unfold setText
  by_cases h : c.value = .nil
  · rw [if_neg (fun h' => h' h), if_pos h]; rfl
  · rw [if_pos h, if_neg h]; rfl

theorem updateStmt_text (ff : FloatFmt) (table : Table) {pk : List PkVal} {cols : List UpdCol} {sets : List (Bytes × Option Bytes)}
    {conds : List (Bytes × Bytes)} (hp : PkText ff pk conds) (hu : UpdText ff cols sets) :
    updateStmt ff table pk cols = updateText (b! " and ") table.db table.name sets conds := by
  have e1 : cols.map (setText ff) = sets.map assignText := by
    clear hp
    induction hu with
    | nil => rfl
    | cons h _ ih => rw [List.map_cons, List.map_cons, ih, setText_eq, h]
  have e2 : pk.map (whereText ff) = conds.map fun c => assignText (c.1, some c.2) := by
    clear hu e1
    induction hp with
    | nil => rfl
    | cons h _ ih => rw [List.map_cons, List.map_cons, ih, ← h]; rfl
  unfold updateStmt updateText
  rw [joinAnd_eq, joinAnd_eq, e1, e2]

theorem keyVals_typed (cfg : RCfg) (table : Table) (fs : List IdxField) (keys : List TVal) (ht : KeyTyped table (fs.map (·.name)) keys)
    (hf : ∀ v ∈ keys, v.Fits cfg.env.zone ∧ KeyDecodable v) :
    ∃ ps, KeyVals cfg table fs (keys.map TVal.enc) ps ∧ PkText cfg.env.ff ps (shownConds cfg.env.ff (fs.map (·.name)) keys) := by
  induction fs generalizing keys with
  | nil => cases ht; exact ⟨[], .nil, .nil⟩
  | cons f fs ih =>
    cases ht with
    | @cons _ v _ vs h1 h2 =>
      obtain ⟨c, hn, hc⟩ := h1
      obtain ⟨hfit, hp, hl⟩ := hf _ List.mem_cons_self
      obtain ⟨ps, i1, i2⟩ := ih vs h2 fun v hv => hf v (List.mem_cons_of_mem _ hv)
      obtain ⟨x, _, hx, hparse⟩ := decode_typed cfg.env c v hc hfit hp
      refine ⟨⟨f.name, x⟩ :: ps, .cons (b := if TVal.isHex v then true else c.isBinary) ?_ i1, .cons ?_ i2⟩
      · intro rest out
        unfold keyDecode
        rw [named_lookup hn, hparse _ _ (by omega)]
      · show (f.name, fmtV cfg.env.ff x) = _
        rw [hx]

theorem oldVals_typed (cfg : RCfg) (table : Table) (olds : List (Nat × Option TVal)) (ht : OldTyped table olds) {ahead : Nat}
    (hf : ∀ e ∈ olds, ∀ v, e.2 = some v → v.Fits cfg.env.zone ∧ TVal.Decodable v ∧ TVal.lookahead v ≤ ahead) :
    ∃ cs, OldVals cfg table ahead (olds.map fun e => (e.1, e.2.map TVal.enc)) cs ∧ UpdText cfg.env.ff cs (shownSets cfg.env.ff table olds) := by
  induction olds with
  | nil => exact ⟨[], .nil, .nil⟩
  | cons e olds ih =>
    obtain ⟨k, v⟩ := e
    obtain ⟨c, hc, hof⟩ := ht _ List.mem_cons_self
    dsimp only at hc hof
    obtain ⟨cs, i1, i2⟩ := ih (fun e he => ht e (List.mem_cons_of_mem _ he)) fun e he => hf e (List.mem_cons_of_mem _ he)
    have hname : nameAt table k = c.name := by rw [nameAt, hc]; rfl
    cases v with
    | none =>
      refine ⟨⟨c.name, .nil⟩ :: cs, .null hc i1, .cons ?_ i2⟩
      show (c.name, _) = (nameAt table k, _)
      rw [hname]
      rfl
    | some v =>
      obtain ⟨hfit, hp, ha⟩ := hf _ List.mem_cons_self v rfl
      obtain ⟨x, hx0, hx, hparse⟩ := decode_typed cfg.env c v (hof v rfl) hfit hp
      refine ⟨⟨c.name, x⟩ :: cs, .val (b := if TVal.isHex v then true else c.isBinary) hc ?_ i1, .cons ?_ i2⟩
      · intro rest out h5
        unfold oldDecode
        rw [hparse _ _ (by omega)]
      · show (c.name, if x = .nil then none else some (fmtV cfg.env.ff x)) = (nameAt table k, some (TVal.shown cfg.env.ff v))
        rw [hname, if_neg hx0, hx]

/-! ## The records -/

/-- What is known of an undo record of the table and its values. -/
structure Recorded (cfg : RCfg) (u : Undo) (table : Table) (names : List Bytes) (keys : List TVal) (olds : List (Nat × Option TVal)) : Prop where
  fits : u.Fits
  undoNo : u.undoNo < 2 ^ 32
  tableId : u.tableId < 2 ^ 32
  known : cfg.tables.get? u.tableId = some table
  hasKey : HasKey table names
  update : UpdateOf u keys olds
  keyTyped : KeyTyped table names keys
  oldTyped : OldTyped table olds
  keyFits : ∀ v ∈ keys, v.Fits cfg.env.zone
  oldFits : ∀ e ∈ olds, ∀ v, e.2 = some v → v.Fits cfg.env.zone

/-- Exactly what is printed for an undo record of an update whose values the decoder gets right. -/
theorem C42_exact (cfg : RCfg) (s : Stream) (u : Undo) (table : Table) (names : List Bytes) (keys : List TVal) (olds : List (Nat × Option TVal))
    (h : Recorded cfg u table names keys olds) (hk : ∀ v ∈ keys, KeyDecodable v) (ho : ∀ e ∈ olds, ∀ v, e.2 = some v → TVal.Decodable v)
    (hl : s.data.length < 2 ^ 32) (pre suf : Bytes) (hd : s.data = pre ++ (beEnc 2 u.enc.length ++ u.enc) ++ suf)
    (ha : ∀ e ∈ olds, ∀ v, e.2 = some v → TVal.lookahead v ≤ suf.length)
    (h5 : 5 ≤ (keyEnc u.key ++ (u.vecEnc ++ (u.tail ++ suf))).length) (out : Out) :
    mlogUndoInsert cfg s ⟨pre.length, out⟩ = .ok none ⟨(pre ++ (beEnc 2 u.enc.length ++ u.enc)).length,
      out ++ if filterPrints cfg table
        then [updateText (b! " and ") table.db table.name (shownSets cfg.env.ff table olds) (shownConds cfg.env.ff names keys)] else []⟩ := by
  obtain ⟨hu, hn, ht, htab, hkey, hup, hkt, hot, hkf, hof⟩ := h
  obtain ⟨h12, huk, huf⟩ := hup
  have hnames := key_names hkey
  subst hnames
  obtain ⟨ps, k1, k2⟩ := keyVals_typed cfg table _ keys hkt fun v hv => ⟨hkf v hv, hk v hv⟩
  obtain ⟨cs, o1, o2⟩ := oldVals_typed cfg table olds hot (ahead := suf.length) fun e he v hv => ⟨hof e he v hv, ho e he v hv, ha e he v hv⟩
  rw [← huk] at k1
  rw [← huf] at o1
  rw [undo_update cfg s u hu h12 hn ht table htab ps cs k1 o1 hl pre suf hd h5 (Nat.le_refl _) out, updateStmt_text cfg.env.ff table k2 o2]

/-- **C42 (partial).** For an undo record of an update of an existing row, at any place of a stream, exactly one statement is printed,
for the table; it sets each recorded column to its old value, NULL for NULL, and its conditions are the recorded values of the primary
key.  Missing: values the decoder gets wrong (C07, C09, C11, C14, DECIMAL), binary and BIT columns (`C42_exact`, `C42_false`), key
columns of type DATETIME (`C42_datetime_key`), tables without a primary key (`C42_no_key`), undo numbers and table ids of 2^32 and
more (C05). -/
theorem C42_update_partial (cfg : RCfg) (s : Stream) (u : Undo) (table : Table) (names : List Bytes) (keys : List TVal)
    (olds : List (Nat × Option TVal)) (h : Recorded cfg u table names keys olds) (hw : NameSelected cfg.dbName cfg.tableName table)
    (hk : ∀ v ∈ keys, Printable v ∧ TVal.lookahead v = 0) (ho : ∀ e ∈ olds, ∀ v, e.2 = some v → Printable v)
    (hl : s.data.length < 2 ^ 32) (pre suf : Bytes) (hd : s.data = pre ++ (beEnc 2 u.enc.length ++ u.enc) ++ suf)
    (ha : ∀ e ∈ olds, ∀ v, e.2 = some v → TVal.lookahead v ≤ suf.length)
    (h5 : 5 ≤ (keyEnc u.key ++ (u.vecEnc ++ (u.tail ++ suf))).length) (out : Out) :
    mlogUndoInsert cfg s ⟨pre.length, out⟩ = .ok none ⟨(pre ++ (beEnc 2 u.enc.length ++ u.enc)).length,
      out ++ [updateText (b! " and ") table.db table.name (setsOf cfg.env.ff table olds) (condsOf cfg.env.ff names keys)]⟩ := by
  rw [C42_exact cfg s u table names keys olds h (fun v hv => ⟨(hk v hv).1.1, (hk v hv).2⟩) (fun e he v hv => (ho e he v hv).1) hl pre suf hd ha h5 out,
    filter_complete cfg table hw, if_pos rfl]
  have e1 : shownSets cfg.env.ff table olds = setsOf cfg.env.ff table olds := by
    unfold shownSets setsOf
    refine List.map_congr_left fun e he => ?_
    obtain ⟨k, v⟩ := e
    cases v with
    | none => rfl
    | some v =>
      show (_, some _) = (_, some _)
      rw [shown_lit (ho _ he v rfl)]
  have e2 : shownConds cfg.env.ff names keys = condsOf cfg.env.ff names keys := by
    unfold shownConds condsOf
    rw [List.map_congr_left fun v hv => shown_lit (hk v hv).1 cfg.env.ff]
  rw [e1, e2]

/-! ## Examples -/

/-- a table with an INT primary key `id` and the column `c` -/
def exTable (c : Column) : Table :=
  { db := b! "d", name := b! "t", columns := [{ name := b! "id", ftype := 6, mtype := 3, len := 4 }, { name := b! "DB_TRX_ID" }, { name := b! "DB_ROLL_PTR" }, c],
    indexes := [(1, ⟨1, b! "PRIMARY", 1, 3, [⟨0, b! "id"⟩]⟩), (2, ⟨2, b! "k", 1, 0, [⟨3, c.name⟩]⟩)] }

def exUndo (v : Option Bytes) : Undo := ⟨12, 1, 3, 77, 0, 2 ^ 33, 2 ^ 50, [[128, 0, 0, 7]], [(3, v)], []⟩

def exCfg (c : Column) : RCfg := ⟨someEnv, [(77, exTable c)], [], []⟩

theorem exKey (c : Column) : HasKey (exTable c) [b! "id"] := by
  refine ⟨[], (1, ⟨1, b! "PRIMARY", 1, 3, [⟨0, b! "id"⟩]⟩), [(2, ⟨2, b! "k", 1, 0, [⟨3, c.name⟩]⟩)], rfl, rfl, rfl, ?_⟩
  intro j hj
  simp only [List.nil_append, List.mem_cons, List.not_mem_nil, or_false] at hj
  subst hj
  have : trimSpace (b! "k") ≠ b! "PRIMARY" ∧ trimSpace (b! "k") ≠ b! "GEN_CLUST_INDEX" := by decide
  exact this

/-- the record with old value `v` of column `c` -/
theorem exRecorded (c : Column) (v : TVal) (hc : v.Of c) (hf : v.Fits someEnv.zone) (hl : v.enc.length < 100) :
    Recorded (exCfg c) (exUndo (some v.enc)) (exTable c) [b! "id"] [.int 4 7] [(3, some v)] where
  fits := by
    have h0 : (12 : Nat) ∈ [11, 12, 13, 14] ∧ 1 < 16 ∧ 3 < 2 ^ 64 ∧ 77 < 2 ^ 64 ∧ 2 ^ 33 < 2 ^ 64 ∧ 2 ^ 50 < 2 ^ 64 := by decide
    refine ⟨h0.1, h0.2.1, h0.2.2.1, h0.2.2.2.1, h0.2.2.2.2.1, h0.2.2.2.2.2, ?_, ?_⟩
    · intro f hf
      have : f = (3, some v.enc) := List.mem_singleton.mp hf
      subst this
      refine ⟨by show 3 < 2 ^ 32; omega, fun w hw => ?_⟩
      cases hw
      unfold SQL_NULL
      omega
    · have e : (compEnc v.enc.length).length ≤ 5 := by
        unfold compEnc
        rw [if_pos (by omega), beEnc_length]
        omega
      have h1 : (Undo.hdrEnc (exUndo (some v.enc)) ++ keyEnc [[128, 0, 0, 7]]).length = (Undo.hdrEnc (exUndo none) ++ keyEnc [[128, 0, 0, 7]]).length := rfl
      have h2 : (Undo.hdrEnc (exUndo none) ++ keyEnc [[128, 0, 0, 7]]).length < 60 := by decide
      have h3 : (exUndo (some v.enc)).vecEnc = compEnc 1 ++ (compEnc 3 ++ (compEnc v.enc.length ++ v.enc) ++ []) := rfl
      have h4 : (exUndo (some v.enc)).enc = Undo.hdrEnc (exUndo (some v.enc)) ++ (keyEnc [[128, 0, 0, 7]] ++ ((exUndo (some v.enc)).vecEnc ++ [])) := Undo.enc_eq _
      have h5 : (compEnc 1).length = 1 ∧ (compEnc 3).length = 1 := by decide
      rw [h4, h3]
      simp only [List.length_append, List.length_nil] at h1 h2 ⊢
      omega
  undoNo := by show 3 < 2 ^ 32; decide
  tableId := by show 77 < 2 ^ 32; decide
  known := rfl
  hasKey := exKey c
  update := ⟨rfl, by show [[128, 0, 0, 7]] = [intEnc 4 7]; decide, rfl⟩
  keyTyped := .cons ⟨_, ⟨[], _, rfl, rfl, nofun⟩, rfl, by decide, by decide, rfl, rfl⟩ .nil
  oldTyped := by
    intro e he
    have : e = (3, some v) := List.mem_singleton.mp he
    subst this
    exact ⟨c, rfl, fun w hw => by cases hw; exact hc⟩
  keyFits := by
    intro w hw
    have : w = .int 4 7 := List.mem_singleton.mp hw
    subst this
    exact ⟨by decide, by decide, by decide⟩
  oldFits := by
    intro e he w hw
    have : e = (3, some v) := List.mem_singleton.mp he
    subst this
    cases hw
    exact hf

/-- non-vacuity: a VARCHAR column whose old value was `it` -/
example (out : Out) : ∃ p, mlogUndoInsert (exCfg { name := b! "c", ftype := 12, mtype := 15, len := 20 })
    ⟨[22, 0, 5] ++ (beEnc 2 (exUndo (some (b! "it"))).enc.length ++ (exUndo (some (b! "it"))).enc) ++ [], 0⟩ ⟨3, out⟩ =
      .ok none ⟨p, out ++ [b! "update `d`.`t` set `c`='it' where `id`='7';"]⟩ := by
  refine ⟨_, C42_update_partial (exCfg { name := b! "c", ftype := 12, mtype := 15, len := 20 }) _ (exUndo (some (b! "it"))) _ _ _ _
    (exRecorded _ (.varchar (b! "it")) rfl trivial (by decide)) ⟨Or.inl rfl, Or.inl rfl⟩ ?_ ?_ (by decide) [22, 0, 5] [] rfl ?_ (by decide) out⟩
  · intro v hv
    have : v = .int 4 7 := List.mem_singleton.mp hv
    subst this
    exact ⟨⟨trivial, rfl, nofun⟩, rfl⟩
  · intro e he v hv
    have : e = (3, some (.varchar (b! "it"))) := List.mem_singleton.mp he
    subst this
    cases hv
    exact ⟨trivial, rfl, nofun⟩
  · intro e he v hv
    have : e = (3, some (.varchar (b! "it"))) := List.mem_singleton.mp he
    subst this
    cases hv
    exact Nat.zero_le _

/-! ## Where it fails -/

/-- Binary values are printed as strings of hexadecimal digits, which denote other values. -/
theorem C42_false : ¬ C42_statement := by
  rintro ⟨sep, _, h⟩
  have hrec := exRecorded { name := b! "c", ftype := 3, mtype := 254, len := 1 } (.binary [65]) ⟨rfl, rfl⟩ trivial (by decide)
  have hk : ∀ v ∈ [TVal.int 4 7], v = .int 4 7 := fun v hv => List.mem_singleton.mp hv
  have ho : ∀ e ∈ [((3 : Nat), some (TVal.binary [65]))], e = (3, some (.binary [65])) := fun v hv => List.mem_singleton.mp hv
  have hnil : ∀ ff : FloatFmt, 39 ∉ (TVal.int 4 7).lit ff ∧ 92 ∉ (TVal.int 4 7).lit ff := by
    intro ff
    show 39 ∉ intText 7 ∧ 92 ∉ intText 7
    decide
  have h1 := C42_exact _ ⟨[] ++ (beEnc 2 (exUndo (some [65])).enc.length ++ (exUndo (some [65])).enc) ++ [31, 31, 31, 31, 31], 0⟩ _ _ _ _ _ hrec
    (fun v hv => by rw [hk v hv]; exact ⟨trivial, rfl⟩) (fun e he v hv => by rw [ho e he] at hv; cases hv; trivial) (by decide) [] [31, 31, 31, 31, 31] rfl
    (fun e he v hv => by rw [ho e he] at hv; cases hv; exact Nat.zero_le _) (by decide) []
  obtain ⟨r, h2⟩ := h (exCfg { name := b! "c", ftype := 3, mtype := 254, len := 1 })
    ⟨[] ++ (beEnc 2 (exUndo (some [65])).enc.length ++ (exUndo (some [65])).enc) ++ [31, 31, 31, 31, 31], 0⟩ (exUndo (some [65])) _ [b! "id"] [.int 4 7]
    [(3, some (.binary [65]))] [] [31, 31, 31, 31, 31] [] hrec.fits hrec.update hrec.known ⟨Or.inl rfl, Or.inl rfl⟩ hrec.hasKey hrec.keyTyped hrec.oldTyped
    (fun v hv => by rw [hk v hv]; exact ⟨hrec.keyFits _ List.mem_cons_self, hnil _⟩)
    (fun e he v hv => by rw [ho e he] at hv; cases hv; exact ⟨trivial, by decide, by decide⟩) rfl (by decide)
  have h1' : mlogUndoInsert (exCfg { name := b! "c", ftype := 3, mtype := 254, len := 1 })
    ⟨[] ++ (beEnc 2 (exUndo (some [65])).enc.length ++ (exUndo (some [65])).enc) ++ [31, 31, 31, 31, 31], 0⟩ ⟨([] : Bytes).length, []⟩ = _ := h1
  rw [h1'] at h2
  injection h2 with _ h3
  injection h3 with _ h4
  have h5 : [b! "update `d`.`t` set `c`='41' where `id`='7';"] = [b! "update `d`.`t` set `c`='A' where `id`='7';"] := h4
  revert h5
  decide

/-- In general: for every BINARY, VARBINARY or BLOB column `c` and old value, the digits are printed. -/
theorem C42_binary (cfg : RCfg) (s : Stream) (u : Undo) (table : Table) (names : List Bytes) (keys : List TVal) (k : Nat) (v : TVal) (b : Bytes)
    (hv : v = .binary b ∨ v = .varbinary b ∨ v = .blob b)
    (h : Recorded cfg u table names keys [(k, some v)]) (hk : ∀ v ∈ keys, KeyDecodable v) (hw : NameSelected cfg.dbName cfg.tableName table)
    (hl : s.data.length < 2 ^ 32) (pre suf : Bytes) (hd : s.data = pre ++ (beEnc 2 u.enc.length ++ u.enc) ++ suf)
    (h5 : 5 ≤ (keyEnc u.key ++ (u.vecEnc ++ (u.tail ++ suf))).length) (out : Out) :
    mlogUndoInsert cfg s ⟨pre.length, out⟩ = .ok none ⟨(pre ++ (beEnc 2 u.enc.length ++ u.enc)).length,
      out ++ [updateText (b! " and ") table.db table.name [(nameAt table k, some (parseBlob b))] (shownConds cfg.env.ff names keys)]⟩ := by
  have e : ∀ e ∈ [(k, some v)], e = (k, some v) := fun e he => List.mem_singleton.mp he
  have := C42_exact cfg s u table names keys _ h hk (fun x hx w hw => by rw [e x hx] at hw; cases hw; rcases hv with rfl | rfl | rfl <;> trivial) hl pre suf hd
    (fun x hx w hw => by rw [e x hx] at hw; cases hw; rcases hv with rfl | rfl | rfl <;> exact Nat.zero_le _) h5 out
  rw [this, filter_complete cfg table hw, if_pos rfl]
  rcases hv with rfl | rfl | rfl <;> rfl

/-- Tables without a primary key: the condition is `DB_ROW_ID`='<nil>', whatever the row id. -/
theorem C42_no_key (cfg : RCfg) (s : Stream) (u : Undo) (table : Table) (rowId : Bytes) (olds : List (Nat × Option TVal)) (c : Column)
    (hu : u.Fits) (hn : u.undoNo < 2 ^ 32) (ht : u.tableId < 2 ^ 32) (htab : cfg.tables.get? u.tableId = some table) (hkey : NoKey table)
    (hc : Named table (b! "DB_ROW_ID") c) (hc0 : c.ftype = 0) (h12 : u.kind = 12) (huk : u.key = [rowId])
    (huf : u.fields = olds.map fun e => (e.1, e.2.map TVal.enc)) (hot : OldTyped table olds)
    (ho : ∀ e ∈ olds, ∀ v, e.2 = some v → v.Fits cfg.env.zone ∧ TVal.Decodable v) (hw : NameSelected cfg.dbName cfg.tableName table)
    (hl : s.data.length < 2 ^ 32) (pre suf : Bytes) (hd : s.data = pre ++ (beEnc 2 u.enc.length ++ u.enc) ++ suf)
    (ha : ∀ e ∈ olds, ∀ v, e.2 = some v → TVal.lookahead v ≤ suf.length)
    (h5 : 5 ≤ (keyEnc u.key ++ (u.vecEnc ++ (u.tail ++ suf))).length) (out : Out) :
    mlogUndoInsert cfg s ⟨pre.length, out⟩ = .ok none ⟨(pre ++ (beEnc 2 u.enc.length ++ u.enc)).length,
      out ++ [updateText (b! " and ") table.db table.name (shownSets cfg.env.ff table olds) [(b! "DB_ROW_ID", b! "<nil>")]]⟩ := by
  have k1 : KeyVals cfg table (getPrimaryKey table.indexes []) u.key [⟨b! "DB_ROW_ID", .nil⟩] := by
    rw [no_key hkey, huk]
    refine .cons (b := c.isBinary) ?_ .nil
    intro rest out
    unfold keyDecode
    rw [named_lookup hc]
    unfold parseData
    rw [hc0]
    rfl
  obtain ⟨cs, o1, o2⟩ := oldVals_typed cfg table olds hot (ahead := suf.length) fun e he v hv => ⟨(ho e he v hv).1, (ho e he v hv).2, ha e he v hv⟩
  rw [← huf] at o1
  have k2 : PkText cfg.env.ff [⟨b! "DB_ROW_ID", .nil⟩] [(b! "DB_ROW_ID", b! "<nil>")] := .cons rfl .nil
  rw [undo_update cfg s u hu h12 hn ht table htab _ cs k1 o1 hl pre suf hd h5 (Nat.le_refl _) out, updateStmt_text cfg.env.ff table k2 o2,
    filter_complete cfg table hw, if_pos rfl]

/-- non-vacuity -/
def rowIdTable : Table :=
  { db := b! "d", name := b! "t",
    columns := [{ name := b! "DB_ROW_ID", len := 6 }, { name := b! "DB_TRX_ID" }, { name := b! "DB_ROLL_PTR" }, { name := b! "c", ftype := 12 }],
    indexes := [(1, ⟨1, b! "GEN_CLUST_INDEX", 0, 1, []⟩)] }

def rowIdUndo : Undo := ⟨12, 1, 3, 77, 0, 2, 2, [[0, 0, 0, 0, 2, 5]], [(3, some (b! "x"))], []⟩

example (out : Out) : ∃ p, mlogUndoInsert ⟨someEnv, [(77, rowIdTable)], [], []⟩
    ⟨[] ++ (beEnc 2 rowIdUndo.enc.length ++ rowIdUndo.enc) ++ [], 0⟩ ⟨0, out⟩ =
      .ok none ⟨p, out ++ [b! "update `d`.`t` set `c`='x' where `DB_ROW_ID`='<nil>';"]⟩ := by
  refine ⟨_, C42_no_key _ _ rowIdUndo rowIdTable [0, 0, 0, 0, 2, 5] [(3, some (.varchar (b! "x")))] _ ?_ (by decide) (by decide) rfl ?_
    ⟨[], _, rfl, rfl, nofun⟩ rfl rfl rfl rfl ?_ ?_ ⟨Or.inl rfl, Or.inl rfl⟩ (by decide) [] [] rfl ?_ (by decide) out⟩
  · refine ⟨by decide, by decide, by decide, by decide, by decide, by decide, ?_, by decide⟩
    intro f hf
    have : f = (3, some (b! "x")) := List.mem_singleton.mp hf
    subst this
    exact ⟨by decide, fun v hv => by cases hv; decide⟩
  · exact ⟨[], _, [], rfl, rfl, nofun⟩
  · intro e he
    have : e = (3, some (.varchar (b! "x"))) := List.mem_singleton.mp he
    subst this
    exact ⟨_, rfl, fun v hv => by cases hv; rfl⟩
  · intro e he v hv
    have : e = (3, some (.varchar (b! "x"))) := List.mem_singleton.mp he
    subst this
    cases hv
    exact ⟨trivial, trivial⟩
  · intro e he v hv
    have : e = (3, some (.varchar (b! "x"))) := List.mem_singleton.mp he
    subst this
    cases hv
    exact Nat.zero_le _

theorem parseDateTime_short {d : Bytes} (h : d.length < 8) : parseDateTime d = none := by
  have : matchReadFrom8 d = none := by
    match d, h with
    | [], _ | [_], _ | [_, _], _ | [_, _, _], _ | [_, _, _, _], _ | [_, _, _, _, _], _ | [_, _, _, _, _, _], _ | [_, _, _, _, _, _, _], _ => rfl
    | _ :: _ :: _ :: _ :: _ :: _ :: _ :: _ :: _, h => simp only [List.length_cons] at h; omega
  unfold parseDateTime getTimeFormat
  rw [this]
  rfl

theorem keyTyped_split {table : Table} {names names' : List Bytes} {name : Bytes} {keys keys' : List TVal} {v : TVal} (hl : names.length = keys.length)
    (h : KeyTyped table (names ++ name :: names') (keys ++ v :: keys')) :
    KeyTyped table names keys ∧ ∃ c, Named table name c ∧ v.Of c := by
  induction names generalizing keys with
  | nil =>
    have : keys = [] := List.length_eq_zero_iff.mp hl.symm
    subst this
    cases h with
    | cons h1 h2 => exact ⟨.nil, h1⟩
  | cons n ns ih =>
    cases keys with
    | nil => cases hl
    | cons k ks =>
      cases h with
      | cons h1 h2 =>
        obtain ⟨i1, i2⟩ := ih (Nat.succ.inj hl) h2
        exact ⟨.cons h1 i1, i2⟩

/-- A DATETIME (MySQL 5.6) in the primary key: nothing at all is printed. -/
theorem C42_datetime_key (cfg : RCfg) (s : Stream) (u : Undo) (table : Table) (names names' : List Bytes) (name : Bytes) (keys keys' : List TVal) (c : Civil)
    (olds : List (Nat × Option TVal)) (h : Recorded cfg u table (names ++ name :: names') (keys ++ .datetime c :: keys') olds)
    (hlen : names.length = keys.length) (hk : ∀ v ∈ keys, KeyDecodable v) (pre suf : Bytes) (hd : s.data = pre ++ (beEnc 2 u.enc.length ++ u.enc) ++ suf)
    (h5 : 5 ≤ (keyEnc u.key ++ (u.vecEnc ++ (u.tail ++ suf))).length) (out : Out) :
    mlogUndoInsert cfg s ⟨pre.length, out⟩ = .ok none ⟨(pre ++ (beEnc 2 u.enc.length ++ u.enc)).length, out⟩ := by
  obtain ⟨hu, hn, ht, htab, hkey, hup, hkt, hot, hkf, hof⟩ := h
  obtain ⟨h12, huk, huf⟩ := hup
  obtain ⟨ht1, col, hcn, hof1, hof2⟩ := keyTyped_split hlen hkt
  have hnames := key_names hkey
  obtain ⟨fs, r, hfs, hr1, hr2⟩ := List.map_eq_append_iff.mp hnames
  obtain ⟨f, fs', rfl, hf1, hf2⟩ := List.map_eq_cons_iff.mp hr2
  subst hr1 hf1 hf2
  obtain ⟨ps, k1, _⟩ := keyVals_typed cfg table fs keys ht1 fun v hv => ⟨hkf v (List.mem_append_left _ hv), hk v hv⟩
  rw [List.map_append, List.map_cons] at huk
  refine undo_key_panics cfg s u hu hn ht table htab fs f fs' hfs _ _ _ huk ps k1 ?_ pre suf hd h5 out
  intro rest out
  unfold keyDecode
  rw [named_lookup hcn]
  have e1 : seen col rest = [] := by
    unfold seen
    rw [hof1]
    rfl
  rw [e1, List.append_nil, hof1, hof2]
  have e2 : parseDateTime (TVal.datetime c).enc = none := by
    apply parseDateTime_short
    show (datetimeNewEnc c).length < 8
    unfold datetimeNewEnc
    rw [beEnc_length]
    decide
  unfold parseData
  rw [if_neg (by decide), if_neg (by decide), if_pos (show 3 = DATA_FIXBINARY from rfl), if_neg (by decide), if_neg (by decide),
    if_pos (show 12 = MYSQL_TYPE_DATETIME from rfl), e2]
  rfl

/-- a table with the primary key `made`, a DATETIME -/
def timeTable : Table :=
  { db := b! "d", name := b! "t",
    columns := [{ name := b! "made", ftype := 3, mtype := 12, len := 5 }, { name := b! "DB_TRX_ID" }, { name := b! "DB_ROLL_PTR" }, { name := b! "c", ftype := 12 }],
    indexes := [(1, ⟨1, b! "PRIMARY", 1, 3, [⟨0, b! "made"⟩]⟩)] }

def timeUndo : Undo := ⟨12, 1, 3, 77, 0, 2, 2, [datetimeNewEnc ⟨2019, 2, 3, 4, 5, 6⟩], [(3, some (b! "x"))], []⟩

/-- non-vacuity -/
example (out : Out) : ∃ p, mlogUndoInsert ⟨someEnv, [(77, timeTable)], [], []⟩
    ⟨[] ++ (beEnc 2 timeUndo.enc.length ++ timeUndo.enc) ++ [31, 31, 31, 31, 31], 0⟩ ⟨0, out⟩ = .ok none ⟨p, out⟩ := by
  refine ⟨_, C42_datetime_key _ _ timeUndo timeTable [] [] (b! "made") [] [] ⟨2019, 2, 3, 4, 5, 6⟩ [(3, some (.varchar (b! "x")))] ⟨?_, by decide, by decide, rfl, ?_, ⟨rfl, rfl, rfl⟩, ?_, ?_, ?_, ?_⟩
    rfl nofun [] [31, 31, 31, 31, 31] rfl (by decide) out⟩
  · refine ⟨by decide, by decide, by decide, by decide, by decide, by decide, ?_, by decide⟩
    intro f hf
    have : f = (3, some (b! "x")) := List.mem_singleton.mp hf
    subst this
    exact ⟨by decide, fun v hv => by cases hv; decide⟩
  · exact ⟨[], _, [], rfl, rfl, rfl, nofun⟩
  · exact .cons ⟨_, ⟨[], _, rfl, rfl, nofun⟩, rfl, rfl⟩ .nil
  · intro e he
    have : e = (3, some (.varchar (b! "x"))) := List.mem_singleton.mp he
    subst this
    exact ⟨_, rfl, fun v hv => by cases hv; rfl⟩
  · intro v hv
    have : v = .datetime ⟨2019, 2, 3, 4, 5, 6⟩ := List.mem_singleton.mp hv
    subst this
    refine ⟨?_, by decide⟩
    unfold Civil.Valid
    decide
  · intro e he v hv
    have : e = (3, some (.varchar (b! "x"))) := List.mem_singleton.mp he
    subst this
    cases hv
    trivial

/-! ## Whole streams -/

/-- What must be printed for a record: one UPDATE statement for an undo record of an update of an existing row of a selected table,
nothing for any other record.  (The hypotheses are those of C41 and `C42_update_partial`.) -/
inductive Lines (cfg : RCfg) : Item → List Bytes → Prop
  | other {it} (h : InSync cfg it) (hu : ∀ b sp pg u, it ≠ .record b sp pg (.undoInsert u)) : Lines cfg it []
  | unknown {b sp pg u} (hn : u.undoNo < 2 ^ 32) (ht : u.tableId < 2 ^ 32) (h : cfg.tables.get? u.tableId = none) :
      Lines cfg (.record b sp pg (.undoInsert u)) []
  | notUpdate {b sp pg u table names keys} (hn : u.undoNo < 2 ^ 32) (ht : u.tableId < 2 ^ 32) (h : cfg.tables.get? u.tableId = some table)
      (hkey : HasKey table names) (hkt : KeyTyped table names keys) (huk : u.key = keys.map TVal.enc)
      (hk : ∀ v ∈ keys, v.Fits cfg.env.zone ∧ KeyDecodable v) (h12 : u.kind ≠ 12) : Lines cfg (.record b sp pg (.undoInsert u)) []
  | notSelected {b sp pg u table names keys olds} (h : Recorded cfg u table names keys olds) (hk : ∀ v ∈ keys, KeyDecodable v)
      (ho : ∀ e ∈ olds, ∀ v, e.2 = some v → TVal.Decodable v) (hw : ¬ NameSelected cfg.dbName cfg.tableName table)
      (hw' : table.name ≠ cfg.tableName) : Lines cfg (.record b sp pg (.undoInsert u)) []
  | update {b sp pg u table names keys olds} (h : Recorded cfg u table names keys olds) (hw : NameSelected cfg.dbName cfg.tableName table)
      (hk : ∀ v ∈ keys, Printable v ∧ TVal.lookahead v = 0) (ho : ∀ e ∈ olds, ∀ v, e.2 = some v → Printable v) :
      Lines cfg (.record b sp pg (.undoInsert u)) [updateText (b! " and ") table.db table.name (setsOf cfg.env.ff table olds) (condsOf cfg.env.ff names keys)]

theorem lookahead_le (v : TVal) : TVal.lookahead v ≤ 3 := by cases v <;> first | exact Nat.le_refl 3 | exact Nat.zero_le 3

/-- one undo record -/
theorem undo_lines (cfg : RCfg) (s : Stream) (u : Undo) (hf : u.Fits) {b sp pg} {ls : List Bytes} (h : Lines cfg (.record b sp pg (.undoInsert u)) ls)
    (hl : s.data.length < 2 ^ 32) (pre suf : Bytes) (hd : s.data = pre ++ (beEnc 2 u.enc.length ++ u.enc) ++ suf) (h5 : 5 ≤ suf.length) (out : Out) :
    ∃ r, mlogUndoInsert cfg s ⟨pre.length, out⟩ = .ok r ⟨(pre ++ (beEnc 2 u.enc.length ++ u.enc)).length, out ++ ls⟩ := by
  have h5' : 5 ≤ (keyEnc u.key ++ (u.vecEnc ++ (u.tail ++ suf))).length := by simp only [List.length_append]; omega
  have ha : ∀ olds : List (Nat × Option TVal), ∀ e ∈ olds, ∀ v, e.2 = some v → TVal.lookahead v ≤ suf.length :=
    fun _ _ _ v _ => Nat.le_trans (lookahead_le v) (by omega)
  cases h with
  | other h hu => exact absurd rfl (hu _ _ _ _)
  | unknown hn ht h =>
    rw [List.append_nil]
    exact undo_unknown cfg s u hf hn ht h pre suf hd h5' out
  | @notUpdate _ _ _ _ table names keys hn ht h hkey hkt huk hk h12 =>
    rw [List.append_nil]
    have hnames := key_names hkey
    subst hnames
    obtain ⟨ps, k1, _⟩ := keyVals_typed cfg table _ keys hkt hk
    rw [← huk] at k1
    exact ⟨none, undo_other cfg s u hf h12 hn ht table h ps k1 pre suf hd h5' out⟩
  | @notSelected _ _ _ _ table names keys olds h hk ho hw hw' =>
    have := C42_exact cfg s u table names keys olds h hk ho hl pre suf hd (ha _) h5' out
    rw [if_neg] at this
    · exact ⟨none, this⟩
    · intro hp
      rcases (filter_exact cfg table).mp hp with h | h
      · exact hw h
      · exact hw' h.2
  | @update _ _ _ _ table names keys olds h hw hk ho =>
    exact ⟨none, C42_update_partial cfg s u table names keys olds h hw hk ho hl pre suf hd (ha _) h5' out⟩

/-- How many bytes must follow a record for its lines to be the right ones: at the end of an undo record the decoder reads on, by at most
five bytes (see `Rec.ahead` for the other records). -/
def Item.reach : Item → Nat
  | .record _ _ _ (.undoInsert _) => 5
  | it => it.ahead

theorem Item.reach_le (it : Item) : Item.reach it ≤ 5 := by
  unfold Item.reach
  split
  · exact Nat.le_refl _
  · exact Item.ahead_le _

theorem Item.reach_other {it : Item} (h : ∀ b sp pg u, it ≠ .record b sp pg (.undoInsert u)) : Item.reach it = it.ahead := by
  unfold Item.reach
  split
  · exact absurd rfl (h _ _ _ _)
  · rfl

/-- one record -/
theorem step_lines (cfg : RCfg) (s : Stream) (it : Item) (ls : List Bytes) (hf : it.Fits) (hit : Lines cfg it ls) (hl : s.data.length < 2 ^ 32)
    (pre suf : Bytes) (hd : s.data = pre ++ it.enc ++ suf) (hr : Item.reach it ≤ suf.length) (out : Out) :
    redoStep cfg s ⟨pre.length, out⟩ = .ok .next ⟨(pre ++ it.enc).length, out ++ ls⟩ := by
  by_cases hu : ∃ b sp pg u, it = .record b sp pg (.undoInsert u)
  · obtain ⟨b, sp, pg, u, rfl⟩ := hu
    obtain ⟨hsp, hpg, hfu⟩ := hf
    rw [record_enc] at hd ⊢
    have hb : (Rec.undoInsert u).body = beEnc 2 u.enc.length ++ u.enc := rfl
    rw [hb] at hd ⊢
    rw [redoStep_header cfg s b sp pg (.undoInsert u) hsp hpg pre (beEnc 2 u.enc.length ++ u.enc ++ suf)
      (by rw [hd, headerEnc]; simp only [List.append_assoc]) out]
    obtain ⟨r, hm⟩ := undo_lines cfg s u hfu hit hl (pre ++ headerEnc b sp pg (.undoInsert u)) suf
      (by rw [hd]; simp only [List.append_assoc]) hr out
    have : dispatch cfg s (Rec.undoInsert u).type = ign (mlogUndoInsert cfg s) := rfl
    rw [this]
    unfold ign
    rw [headerEnc] at hm
    rw [GoM.bind_ok hm, headerEnc]
    simp only [List.append_assoc]
    rfl
  · have hne : ∀ b sp pg u, it ≠ .record b sp pg (.undoInsert u) := fun b sp pg u e => hu ⟨b, sp, pg, u, e⟩
    cases hit with
    | other hs _ =>
      obtain ⟨o, h1, h2⟩ := C41_record_partial cfg s it hf hs hl pre _ hd (by rw [Item.reach_other hne] at hr; exact hr) out
      rw [h1, h2 hne, List.append_nil]
    | _ => exact absurd rfl (hne _ _ _ _)

/-- **C42 in every log context (partial).** For every sequence of records the statements printed are exactly those that must be, in the order
of the records.  (Here at least five bytes follow; see `C42_log_partial` for the end of the log.) -/
theorem C42_stream_partial (cfg : RCfg) (s : Stream) (its : List Item) (lss : List (List Bytes)) (hf : ∀ it ∈ its, it.Fits) (h : All2 (Lines cfg) its lss)
    (hl : s.data.length < 2 ^ 32) (pre suf : Bytes) (hd : s.data = pre ++ its.flatMap Item.enc ++ suf) (h5 : 5 ≤ suf.length) (out : Out) (fuel : Nat) :
    redoLoop cfg s (its.length + fuel) ⟨pre.length, out⟩ = redoLoop cfg s fuel ⟨(pre ++ its.flatMap Item.enc).length, out ++ lss.flatten⟩ := by
  induction h generalizing pre out with
  | nil => rw [List.length_nil, Nat.zero_add, List.flatMap_nil, List.append_nil, List.flatten_nil, List.append_nil]
  | @cons it ls its lss hit _ ih =>
    rw [List.flatMap_cons] at hd
    have hd1 : s.data = pre ++ it.enc ++ (its.flatMap Item.enc ++ suf) := by rw [hd]; simp only [List.append_assoc]
    have step := step_lines cfg s it ls (hf _ List.mem_cons_self) hit hl pre _ hd1
      (by have := Item.reach_le it; rw [List.length_append]; omega) out
    have := ih (fun i hi => hf i (List.mem_cons_of_mem _ hi)) (pre ++ it.enc) (by rw [hd1]; simp only [List.append_assoc]) (out ++ ls)
    have e : (it :: its).length + fuel = its.length + fuel + 1 := by rw [List.length_cons]; omega
    have e2 : pre ++ (it :: its).flatMap Item.enc = pre ++ it.enc ++ its.flatMap Item.enc := by
      rw [List.flatMap_cons]; simp only [List.append_assoc]
    rw [e, e2, List.flatten_cons, ← List.append_assoc, ← this, redoLoop, getPos_bind, if_neg, GoM.bind_ok step]
    rw [hd1]
    simp only [List.length_append]
    omega

theorem redoLoop_done (cfg : RCfg) (s : Stream) (n : Nat) (st : RS) (h : s.data.length < st.pos + 5) : redoLoop cfg s (n + 1) st = .ok none st := by
  rw [redoLoop, getPos_bind, if_pos h]
  rfl

/-- Every record is followed by as many bytes as its decoder reads behind it.  Most records need none; five bytes always suffice. -/
def Ahead : List Item → Prop
  | [] => True
  | it :: its => Item.reach it ≤ (its.flatMap Item.enc).length ∧ Ahead its

/-- records in the last four bytes are ignored, but these are too short to be printed -/
theorem short_lines {cfg : RCfg} {its : List Item} {lss : List (List Bytes)} (h : All2 (Lines cfg) its lss) (hl : (its.flatMap Item.enc).length < 5) :
    lss.flatten = [] := by
  induction h with
  | nil => rfl
  | @cons it ls its lss hit _ ih =>
    rw [List.flatMap_cons, List.length_append] at hl
    rw [List.flatten_cons, ih (by omega), List.append_nil]
    by_cases hu : ∃ b sp pg u, it = .record b sp pg (.undoInsert u)
    · obtain ⟨b, sp, pg, u, rfl⟩ := hu
      exfalso
      have h1 : ∀ n, 0 < (compEnc n).length := fun n => List.length_pos_iff.mpr (compEnc_ne_nil n)
      have h2 := h1 sp
      have h3 := h1 pg
      rw [record_enc, headerEnc] at hl
      have hb : (Rec.undoInsert u).body = beEnc 2 u.enc.length ++ u.enc := rfl
      rw [hb] at hl
      simp only [List.length_append, beEnc_length] at hl
      omega
    · cases hit with
      | other => rfl
      | _ => exact absurd ⟨_, _, _, _, rfl⟩ hu

theorem ends_lines (cfg : RCfg) (s : Stream) (its : List Item) (lss : List (List Bytes)) (hf : ∀ it ∈ its, it.Fits) (h : All2 (Lines cfg) its lss)
    (hl : s.data.length < 2 ^ 32) (pre : Bytes) (hd : s.data = pre ++ its.flatMap Item.enc) (ha : Ahead its) (out : Out) (fuel : Nat) :
    ∃ p, redoLoop cfg s (its.length + (fuel + 1)) ⟨pre.length, out⟩ = .ok none ⟨p, out ++ lss.flatten⟩ := by
  induction h generalizing pre out with
  | nil =>
    rw [List.length_nil, Nat.zero_add, List.flatten_nil, List.append_nil]
    exact ⟨_, redoLoop_done cfg s fuel _ (by rw [hd, List.flatMap_nil, List.append_nil]; dsimp only; omega)⟩
  | @cons it ls its lss hit hrest ih =>
    have e : (it :: its).length + (fuel + 1) = its.length + (fuel + 1) + 1 := by rw [List.length_cons]; omega
    by_cases h5 : s.data.length < pre.length + 5
    · rw [e, redoLoop_done cfg s _ _ h5, short_lines (.cons hit hrest) (by rw [hd, List.length_append] at h5; omega), List.append_nil]
      exact ⟨_, rfl⟩
    · rw [List.flatMap_cons, ← List.append_assoc] at hd
      have step := step_lines cfg s it ls (hf _ List.mem_cons_self) hit hl pre _ hd ha.1 out
      obtain ⟨p, this⟩ := ih (fun i hi => hf i (List.mem_cons_of_mem _ hi)) (pre ++ it.enc) hd ha.2 (out ++ ls)
      refine ⟨p, ?_⟩
      rw [e, List.flatten_cons, ← List.append_assoc, ← this, redoLoop, getPos_bind, if_neg h5, GoM.bind_ok step]

theorem items_length (its : List Item) : its.length ≤ (its.flatMap Item.enc).length := by
  induction its with
  | nil => exact Nat.le_refl _
  | cons it its ih =>
    have : 1 ≤ it.enc.length := by cases it <;> simp only [Item.enc, List.length_append, beEnc_length] <;> omega
    rw [List.flatMap_cons, List.length_append, List.length_cons]
    omega

/-- **C42 for a whole log (partial).** The log may end at the end of any record, except that a few bytes must follow the records whose decoder
reads behind their end. -/
theorem C42_log_partial (cfg : RCfg) (spare : Nat) (its : List Item) (lss : List (List Bytes)) (hf : ∀ it ∈ its, it.Fits) (h : All2 (Lines cfg) its lss)
    (ha : Ahead its) (hl : (its.flatMap Item.enc).length < 2 ^ 32) (out : Out) :
    parseRedoBlockData cfg ⟨its.flatMap Item.enc, spare⟩ out = .ok none (out ++ lss.flatten) := by
  obtain ⟨p, key⟩ := ends_lines cfg ⟨its.flatMap Item.enc, spare⟩ its lss hf h hl [] rfl ha out ((its.flatMap Item.enc).length - its.length)
  have := items_length its
  rw [show its.length + ((its.flatMap Item.enc).length - its.length + 1) = (its.flatMap Item.enc).length + 1 by omega] at key
  unfold parseRedoBlockData
  dsimp only
  rw [show (⟨0, out⟩ : RS) = ⟨([] : Bytes).length, out⟩ from rfl, key]

/-- non-vacuity: an insert, two updates, a checkpoint -/
def exItems : List Item :=
  [.record false 5 3 (.recInsert (some ⟨1, [4, 0x8007]⟩) 120 ⟨[1, 2, 3], some (0, 6, 300)⟩), .record false 0 300 (.undoInsert (exUndo (some (b! "it")))),
   .checkpoint (2 ^ 40), .record true 0 300 (.undoInsert (exUndo (some [])))]

/-- and the log ends at the end of a record -/
def exLog : List Item := exItems ++ [.record true 5 3 (.bytes2 120 77)]

example (out : Out) : parseRedoBlockData (exCfg { name := b! "c", ftype := 12, mtype := 15, len := 20 }) ⟨exLog.flatMap Item.enc, 0⟩ out =
    .ok none (out ++ [b! "update `d`.`t` set `c`='it' where `id`='7';", b! "update `d`.`t` set `c`='' where `id`='7';"]) := by
  have hrec := fun (v : Bytes) (hl : v.length < 100) => exRecorded { name := b! "c", ftype := 12, mtype := 15, len := 20 } (.varchar v) rfl trivial hl
  have hup : ∀ (v : Bytes), v.length < 100 → ∀ b, Lines (exCfg { name := b! "c", ftype := 12, mtype := 15, len := 20 })
      (.record b 0 300 (.undoInsert (exUndo (some v)))) [_] := fun v hl b => .update (hrec v hl) ⟨Or.inl rfl, Or.inl rfl⟩
    (fun w hw => by
      have : w = .int 4 7 := List.mem_singleton.mp hw
      subst this
      exact ⟨⟨trivial, rfl, nofun⟩, rfl⟩)
    (fun e he w hw => by
      have : e = (3, some (.varchar v)) := List.mem_singleton.mp he
      subst this
      cases hw
      exact ⟨trivial, rfl, nofun⟩)
  refine C42_log_partial _ 0 exLog [[], [_], [], [_], []] ?_ ?_ ⟨by decide, by decide, by decide, by decide, by decide, trivial⟩ (by decide) out
  rotate_left
  · exact .cons (.other trivial nofun) (.cons (hup (b! "it") (by decide) _) (.cons (.other trivial nofun) (.cons (hup [] (by decide) _) (.cons (.other trivial nofun) .nil))))
  intro it hit
  simp only [exLog, exItems, List.cons_append, List.nil_append, List.mem_cons, List.not_mem_nil, or_false] at hit
  rcases hit with rfl | rfl | rfl | rfl | rfl
  · refine ⟨by decide, by decide, show _ < _ by decide, by decide, ?_⟩
    intro x hx
    cases hx
    decide
  · exact ⟨by decide, by decide, (hrec (b! "it") (by decide)).fits⟩
  · trivial
  · exact ⟨by decide, by decide, (hrec [] (by decide)).fits⟩
  · exact ⟨by decide, by decide, by show 77 < 2 ^ 32; decide⟩

end Verif.Props
