import Verif.Props.RedoUpdate
/-!
# C48: truncated logs
-/

namespace Verif.Props
open Verif Spec

/-- **C48**, as stated: records, and the beginning of one more -/
def C48_statement : Prop := ∀ cfg spare (its : List Item) (it : Item) (k : Nat) (lss : List (List Bytes)) (out : Out), (∀ i ∈ its, i.Fits) → it.Fits →
  k < it.enc.length → All2 (Lines cfg) its lss →
  ∃ e out', parseRedoBlockData cfg ⟨its.flatMap Item.enc ++ it.enc.take k, spare⟩ out = .ok e out' ∧ ∃ new, updates out' = updates out ++ lss.flatten ++ new

/-- **C48 is false**: a record that writes a string, cut before the length of the string, aborts the program. -/
theorem C48_false : ¬ C48_statement := by
  intro h
  obtain ⟨e, out', h1, _⟩ := h ⟨someEnv, [], [], []⟩ 0 [] (.record false 0 0 (.writeString 0 [])) 5 [] [] nofun ⟨by decide, by decide, show ([] : Bytes).length < 2 ^ 16 by decide⟩ (by decide) .nil
  have h2 : parseRedoBlockData ⟨someEnv, [], [], []⟩ ⟨[30, 0, 0, 0, 0], 0⟩ [] = .panic [] := by decide
  have h3 : parseRedoBlockData ⟨someEnv, [], [], []⟩ ⟨[30, 0, 0, 0, 0], 0⟩ [] = .ok e out' := h1
  rw [h2] at h3
  cases h3

/-- Even a log of complete records can abort it: the one for the reuse of an undo log header is read beyond its end. -/
theorem C48_complete_aborts : parseRedoBlockData ⟨someEnv, [], [], []⟩ ⟨(Item.record false 0 0 (.undoHdrReuse 7)).enc ++ [], 0⟩ [] = .panic [] := by decide

theorem lines_updates {cfg : RCfg} {its : List Item} {lss : List (List Bytes)} (h : All2 (Lines cfg) its lss) : updates lss.flatten = lss.flatten := by
  induction h with
  | nil => rfl
  | cons h _ ih =>
    rw [List.flatten_cons, updates_append, ih]
    congr 1
    cases h <;> rfl

theorem items_le (its : List Item) : its.length ≤ (its.flatMap Item.enc).length := by
  induction its with
  | nil => exact Nat.le_refl _
  | cons it its ih =>
    have : 1 ≤ it.enc.length := by cases it <;> simp only [Item.enc, List.length_append, beEnc_length] <;> omega
    rw [List.flatMap_cons, List.length_append, List.length_cons]
    omega

theorem parse_st (cfg : RCfg) (s : Stream) (out : Out) : outOf (parseRedoBlockData cfg s out) = (redoLoop cfg s (s.data.length + 1) ⟨0, out⟩).st.out := by
  unfold parseRedoBlockData outOf
  cases redoLoop cfg s (s.data.length + 1) ⟨0, out⟩ <;> rfl

/-- **C48 (partial).** Whatever follows the complete records (at least five bytes), and however the parsing ends: the statements for them have
been printed. -/
theorem C48_printed_partial (cfg : RCfg) (spare : Nat) (its : List Item) (lss : List (List Bytes)) (hf : ∀ it ∈ its, it.Fits) (h : All2 (Lines cfg) its lss)
    (rest : Bytes) (h5 : 5 ≤ rest.length) (hl : (its.flatMap Item.enc ++ rest).length < 2 ^ 32) (out : Out) :
    ∃ new, updates (outOf (parseRedoBlockData cfg ⟨its.flatMap Item.enc ++ rest, spare⟩ out)) = updates out ++ lss.flatten ++ new := by
  have key := C42_stream_partial cfg ⟨its.flatMap Item.enc ++ rest, spare⟩ its lss hf h hl [] rest rfl h5 out
  have hle := items_le its
  obtain ⟨k, hk⟩ : ∃ k, (its.flatMap Item.enc ++ rest).length + 1 = its.length + k :=
    ⟨(its.flatMap Item.enc ++ rest).length + 1 - its.length, by rw [List.length_append]; omega⟩
  rw [parse_st]
  dsimp only
  rw [hk, show (⟨0, out⟩ : RS) = ⟨([] : Bytes).length, out⟩ from rfl, key k]
  obtain ⟨new, h1, _⟩ := redoLoop_updates cfg ⟨its.flatMap Item.enc ++ rest, spare⟩ k ⟨([] ++ its.flatMap Item.enc).length, out ++ lss.flatten⟩
  refine ⟨new, ?_⟩
  rw [h1]
  dsimp only
  rw [updates_append, lines_updates h]

/-- The same if less than five bytes follow, when the last complete record is of an update (and the decoder does not look at what follows). -/
theorem C48_last_printed_partial (cfg : RCfg) (spare : Nat) (its : List Item) (lss : List (List Bytes)) (hf : ∀ it ∈ its, it.Fits)
    (h : All2 (Lines cfg) its lss) (single : Bool) (space page : Nat) (hsp : space < 2 ^ 32) (hpg : page < 2 ^ 32) (u : Undo) (table : Table)
    (names : List Bytes) (keys : List TVal) (olds : List (Nat × Option TVal)) (hr : Recorded cfg u table names keys olds)
    (hw : NameSelected cfg.dbName cfg.tableName table) (hk : ∀ v ∈ keys, Printable v ∧ TVal.lookahead v = 0)
    (ho : ∀ e ∈ olds, ∀ v, e.2 = some v → Printable v) (rest : Bytes) (ha : ∀ e ∈ olds, ∀ v, e.2 = some v → TVal.lookahead v ≤ rest.length)
    (h5 : 5 ≤ (keyEnc u.key ++ (u.vecEnc ++ u.tail)).length)
    (hl : (its.flatMap Item.enc ++ ((Item.record single space page (.undoInsert u)).enc ++ rest)).length < 2 ^ 32) (out : Out) :
    ∃ new, updates (outOf (parseRedoBlockData cfg ⟨its.flatMap Item.enc ++ ((Item.record single space page (.undoInsert u)).enc ++ rest), spare⟩ out)) =
      updates out ++ lss.flatten ++ [updateText (b! " and ") table.db table.name (setsOf cfg.env.ff table olds) (condsOf cfg.env.ff names keys)] ++ new := by
  have hr5 : 5 ≤ ((Item.record single space page (.undoInsert u)).enc ++ rest).length := by
    rw [record_enc]
    have : (Rec.undoInsert u).body = beEnc 2 u.enc.length ++ u.enc := rfl
    rw [this, Undo.enc_eq]
    simp only [List.length_append] at h5 ⊢
    omega
  have key := C42_stream_partial cfg ⟨its.flatMap Item.enc ++ ((Item.record single space page (.undoInsert u)).enc ++ rest), spare⟩ its lss hf h hl []
    ((Item.record single space page (.undoInsert u)).enc ++ rest) rfl hr5 out
  have hle := items_le its
  obtain ⟨k, hk'⟩ : ∃ k, (its.flatMap Item.enc ++ ((Item.record single space page (.undoInsert u)).enc ++ rest)).length + 1 = its.length + (k + 1) :=
    ⟨(its.flatMap Item.enc ++ ((Item.record single space page (.undoInsert u)).enc ++ rest)).length - its.length, by rw [List.length_append]; omega⟩
  rw [parse_st]
  dsimp only
  rw [hk', show (⟨0, out⟩ : RS) = ⟨([] : Bytes).length, out⟩ from rfl, key (k + 1), List.nil_append]
  have step : redoStep cfg ⟨its.flatMap Item.enc ++ ((Item.record single space page (.undoInsert u)).enc ++ rest), spare⟩
      ⟨(its.flatMap Item.enc).length, out ++ lss.flatten⟩ = .ok .next ⟨(its.flatMap Item.enc ++ (Item.record single space page (.undoInsert u)).enc).length,
        out ++ lss.flatten ++ [updateText (b! " and ") table.db table.name (setsOf cfg.env.ff table olds) (condsOf cfg.env.ff names keys)]⟩ := by
    generalize hq : its.flatMap Item.enc = q
    rw [hq] at hl
    have hb : (Rec.undoInsert u).body = beEnc 2 u.enc.length ++ u.enc := rfl
    rw [record_enc, hb] at hl ⊢
    rw [redoStep_header cfg _ single space page (.undoInsert u) hsp hpg q (beEnc 2 u.enc.length ++ u.enc ++ rest)
      (by rw [headerEnc]; simp only [List.append_assoc])]
    have hm := C42_update_partial cfg ⟨q ++ (headerEnc single space page (.undoInsert u) ++ (beEnc 2 u.enc.length ++ u.enc) ++ rest), spare⟩ u table names keys
      olds hr hw hk ho hl (q ++ headerEnc single space page (.undoInsert u)) rest (by simp only [List.append_assoc]) ha
      (by simp only [List.length_append] at h5 ⊢; omega) (out ++ lss.flatten)
    have : ∀ s, dispatch cfg s (Rec.undoInsert u).type = ign (mlogUndoInsert cfg s) := fun s => rfl
    rw [this]
    unfold ign
    rw [headerEnc] at hm ⊢
    rw [GoM.bind_ok hm]
    simp only [List.append_assoc]
    rfl
  rw [redoLoop, getPos_bind, if_neg, GoM.bind_ok step]
  · obtain ⟨new, h1, _⟩ := redoLoop_updates cfg ⟨its.flatMap Item.enc ++ ((Item.record single space page (.undoInsert u)).enc ++ rest), spare⟩ k
      ⟨(its.flatMap Item.enc ++ (Item.record single space page (.undoInsert u)).enc).length,
        out ++ lss.flatten ++ [updateText (b! " and ") table.db table.name (setsOf cfg.env.ff table olds) (condsOf cfg.env.ff names keys)]⟩
    refine ⟨new, ?_⟩
    dsimp only
    rw [h1]
    dsimp only
    rw [updates_append, updates_append, lines_updates h]
    rfl
  · dsimp only
    rw [List.length_append]
    omega

/-! ## Cut undo records -/

/-- **C48 (partial).** A log cut inside an undo record, behind its length field: the parsing ends normally, unless what is left of the record
is taken for an update of a column that the table does not have. -/
theorem C48_undo_cut_partial (cfg : RCfg) (spare : Nat) (its : List Item) (lss : List (List Bytes)) (hf : ∀ it ∈ its, it.Fits)
    (h : All2 (Lines cfg) its lss) (single : Bool) (space page : Nat) (hsp : space < 2 ^ 32) (hpg : page < 2 ^ 32) (u : Undo) (hu : u.Fits) (j : Nat)
    (hj : j < u.enc.length) (s : Stream)
    (hs : s = ⟨its.flatMap Item.enc ++ (headerEnc single space page (.undoInsert u) ++ (beEnc 2 u.enc.length ++ u.enc.take j)), spare⟩)
    (hl : s.data.length < 2 ^ 32) (out : Out)
    (hc : ∀ t, mlogUndoInsert cfg s ⟨(its.flatMap Item.enc ++ headerEnc single space page (.undoInsert u)).length, out ++ lss.flatten⟩ ≠
      .ok (some (b! "field not found")) t) :
    ∃ out', parseRedoBlockData cfg s out = .ok none out' ∧ ∃ new, updates out' = updates out ++ lss.flatten ++ new := by
  have hhdr : 3 ≤ (headerEnc single space page (.undoInsert u)).length := by
    have h1 : 0 < (compEnc space).length := List.length_pos_iff.mpr (compEnc_ne_nil _)
    have h2 : 0 < (compEnc page).length := List.length_pos_iff.mpr (compEnc_ne_nil _)
    rw [headerEnc, List.length_append, List.length_append, beEnc_length]
    omega
  have hr5 : 5 ≤ (headerEnc single space page (.undoInsert u) ++ (beEnc 2 u.enc.length ++ u.enc.take j)).length := by
    rw [List.length_append, List.length_append, beEnc_length]
    omega
  have hd : s.data = its.flatMap Item.enc ++ (headerEnc single space page (.undoInsert u) ++ (beEnc 2 u.enc.length ++ u.enc.take j)) := by rw [hs]
  have key := C42_stream_partial cfg s its lss hf h hl [] _ hd hr5 out
  have hle := items_le its
  have hge : (its.flatMap Item.enc).length + 5 ≤ s.data.length := by rw [hd, List.length_append]; omega
  obtain ⟨k, hk'⟩ : ∃ k, s.data.length + 1 = its.length + (k + 2) := ⟨s.data.length - its.length - 1, by omega⟩
  have hstep := redoStep_header cfg s single space page (.undoInsert u) hsp hpg (its.flatMap Item.enc) (beEnc 2 u.enc.length ++ u.enc.take j)
    (by rw [hd, headerEnc]; simp only [List.append_assoc]) (out ++ lss.flatten)
  have hq : its.flatMap Item.enc ++ (beEnc 1 ((Rec.undoInsert u).type + if single then 128 else 0) ++ (compEnc space ++ compEnc page)) =
      its.flatMap Item.enc ++ headerEnc single space page (.undoInsert u) := rfl
  rw [hq] at hstep
  generalize hqq : its.flatMap Item.enc ++ headerEnc single space page (.undoInsert u) = q at *
  have hn : read2 s.data q.length = some u.enc.length := by
    rw [read2_eq, hd, ← List.append_assoc, hqq, ← List.append_assoc]
    exact readW_beEnc q _ hu.2.2.2.2.2.2.2
  obtain ⟨r, t, hm, hpos⟩ := C45_exact cfg s ⟨q.length, out ++ lss.flatten⟩ u.enc.length hn
  have hend : s.data.length < t.pos + 5 := by
    rcases hpos with h | h | h
    · have : s.data.length = q.length + 2 + j := by
        rw [hd, ← List.append_assoc, hqq, List.length_append, List.length_append, beEnc_length, List.length_take]
        omega
      dsimp only at h
      omega
    · exact h
    · rw [h] at hm
      exact absurd hm (hc t)
  have e : dispatch cfg s (Rec.undoInsert u).type = ign (mlogUndoInsert cfg s) := rfl
  have e2 : ign (mlogUndoInsert cfg s) ⟨q.length, out ++ lss.flatten⟩ = .ok .next t := by
    unfold ign
    rw [GoM.bind_ok hm]
    rfl
  rw [e, e2] at hstep
  have hloop : redoLoop cfg s (s.data.length + 1) ⟨0, out⟩ = .ok none t := by
    rw [hk', show (⟨0, out⟩ : RS) = ⟨([] : Bytes).length, out⟩ from rfl, key (k + 2), List.nil_append, redoLoop, getPos_bind, if_neg, GoM.bind_ok hstep]
    · exact redoLoop_done cfg s k t hend
    · dsimp only
      omega
  refine ⟨t.out, ?_, ?_⟩
  · unfold parseRedoBlockData
    rw [hloop]
  · obtain ⟨new, h1, _⟩ := redoLoop_updates cfg s (k + 2) ⟨([] ++ its.flatMap Item.enc).length, out ++ lss.flatten⟩
    rw [← key, ← hk', show (⟨([] : Bytes).length, out⟩ : RS) = ⟨0, out⟩ from rfl, hloop] at h1
    refine ⟨new, ?_⟩
    have : updates t.out = updates (out ++ lss.flatten) ++ new := h1
    rw [this, updates_append, lines_updates h]

/-- the loop over an update vector that is cut inside its last value: the value is taken for NULL -/
theorem updLoop_cut (cfg : RCfg) (s : Stream) (table : Table) (hl : s.data.length < 2 ^ 32) (fields : List (Nat × Option Bytes)) (cols : List UpdCol)
    (h : OldVals cfg table 0 fields cols) (hf : ∀ f ∈ fields, fieldFits f) (k : Nat) (hk : k < 2 ^ 32) (c : Column) (hc : table.columns[k]? = some c)
    (v : Bytes) (hv : v.length < 2 ^ 32) (j : Nat) (hj : j < v.length) (pre : Bytes)
    (hd : s.data = pre ++ fields.flatMap fieldEnc ++ (compEnc k ++ (compEnc v.length ++ v.take j))) (out : Out) :
    ∃ p, updLoop cfg s table (fields.length + 1) ⟨pre.length, out⟩ = .ok (.ok (cols ++ [⟨c.name, .nil⟩])) ⟨p, out⟩ := by
  induction h generalizing pre with
  | nil =>
    rw [List.flatMap_nil, List.append_nil] at hd
    rw [List.length_nil, Nat.zero_add, updLoop]
    have r1 : matchParseCompressed s.data pre.length = some ⟨k, (compEnc k).length, none⟩ := by
      rw [hd, ← List.append_assoc]
      exact mpc_compEnc pre _ hk
    rw [here_bind_some (s := ⟨pre.length, out⟩) r1]
    dsimp only
    rw [addPos_bind]
    unfold getColumnByPos
    rw [hc]
    dsimp only
    have r2 : matchParseCompressed s.data (pre.length + (compEnc k).length) = some ⟨v.length, (compEnc v.length).length, none⟩ := by
      rw [hd, ← List.length_append, ← List.append_assoc, ← List.append_assoc]
      exact mpc_compEnc _ _ hv
    rw [here_bind_some (s := ⟨pre.length + (compEnc k).length, out⟩) r2, addPos_bind, getPos_bind]
    dsimp only
    have r3 : updValue cfg s c (pre.length + (compEnc k).length + (compEnc v.length).length) v.length = pure (Val.nil, 0) := by
      unfold updValue
      rw [if_pos]
      rw [hd]
      simp only [List.length_append, List.length_take]
      omega
    rw [r3, GoM.bind_ok (GoM.pure_run _ _), addPos_bind, updLoop]
    exact ⟨_, rfl⟩
  | null hcc t ih =>
    rename_i k1 c1 fs cs
    obtain ⟨h1, h2⟩ := hf _ List.mem_cons_self
    rw [List.flatMap_cons] at hd
    have hd1 : s.data = pre ++ fieldEnc (k1, none) ++ (fs.flatMap fieldEnc ++ (compEnc k ++ (compEnc v.length ++ v.take j))) := by
      rw [hd]; simp only [List.append_assoc]
    obtain ⟨p, ih⟩ := ih (fun f h => hf f (List.mem_cons_of_mem _ h)) (pre ++ fieldEnc (k1, none)) (by rw [hd1]; simp only [List.append_assoc])
    rw [List.length_cons, updLoop_null cfg s table (fs.length + 1) hcc h1 hd1 hl out, updTail, GoM.bind_ok ih]
    exact ⟨p, rfl⟩
  | val hcc hx t ih =>
    rename_i k1 c1 v1 x b fs cs
    obtain ⟨h1, h2⟩ := hf _ List.mem_cons_self
    have h3 : v1.length < 2 ^ 32 := by
      have : v1.length < 2 ^ 32 - 1 := h2 v1 rfl
      omega
    rw [List.flatMap_cons] at hd
    have hd1 : s.data = pre ++ fieldEnc (k1, some v1) ++ (fs.flatMap fieldEnc ++ (compEnc k ++ (compEnc v.length ++ v.take j))) := by
      rw [hd]; simp only [List.append_assoc]
    obtain ⟨p, ih⟩ := ih (fun f h => hf f (List.mem_cons_of_mem _ h)) (pre ++ fieldEnc (k1, some v1)) (by rw [hd1]; simp only [List.append_assoc])
    rw [List.length_cons, updLoop_some cfg s table (fs.length + 1) hcc h1 h3 hd1 out, hx _ _ (Nat.zero_le _)]
    dsimp only
    rw [updTail, GoM.bind_ok ih]
    exact ⟨p, rfl⟩

theorem all2_snoc {α β : Type} {p : α → β → Prop} {xs : List α} {ys : List β} {x : α} {y : β} (h : All2 p xs ys) (h' : p x y) :
    All2 p (xs ++ [x]) (ys ++ [y]) := by
  induction h with
  | nil => exact .cons h' .nil
  | cons h _ ih => exact .cons h ih

/-- A log that is cut inside the last old value of an update: a statement is printed for the record, but it sets this column to NULL. -/
theorem C48_cut_value (cfg : RCfg) (s : Stream) (u : Undo) (table : Table) (names : List Bytes) (keys : List TVal) (olds : List (Nat × Option TVal))
    (k : Nat) (v : TVal) (h : Recorded cfg u table names keys (olds ++ [(k, some v)])) (hw : NameSelected cfg.dbName cfg.tableName table)
    (hk : ∀ v ∈ keys, KeyDecodable v) (ho : ∀ e ∈ olds, ∀ v, e.2 = some v → KeyDecodable v) (hl : s.data.length < 2 ^ 32)
    (h5 : 5 ≤ (keyEnc u.key).length) (m : Nat) (hm1 : u.enc.length ≤ m + u.tail.length + v.enc.length) (hm2 : m + u.tail.length < u.enc.length)
    (pre : Bytes) (hd : s.data = pre ++ (beEnc 2 u.enc.length ++ u.enc.take m)) (out : Out) :
    ∃ p, mlogUndoInsert cfg s ⟨pre.length, out⟩ = .ok none ⟨p,
      out ++ [updateText (b! " and ") table.db table.name (shownSets cfg.env.ff table (olds ++ [(k, none)])) (shownConds cfg.env.ff names keys)]⟩ := by
  obtain ⟨hu, hn, ht, htab, hkey, hup, hkt, hot, hkf, hof⟩ := h
  obtain ⟨h12, huk, huf⟩ := hup
  have hnames := key_names hkey
  subst hnames
  obtain ⟨ps, k1, k2⟩ := keyVals_typed cfg table _ keys hkt fun v hv => ⟨hkf v hv, hk v hv⟩
  obtain ⟨cs, o1, o2⟩ := oldVals_typed cfg table olds (fun e he => hot e (List.mem_append_left _ he)) (ahead := 0)
    fun e he v hv => ⟨hof e (List.mem_append_left _ he) v hv, (ho e he v hv).1, by rw [(ho e he v hv).2]; exact Nat.le_refl 0⟩
  rw [← huk] at k1
  obtain ⟨c, hc, _⟩ := hot (k, some v) (List.mem_append_right _ List.mem_cons_self)
  dsimp only at hc
  have hname : nameAt table k = c.name := by rw [nameAt, hc]; rfl
  have hff : ∀ f ∈ u.fields, fieldFits f := hu.2.2.2.2.2.2.1
  rw [List.map_append] at huf
  generalize hfs : olds.map (fun e => (e.1, e.2.map TVal.enc)) = fs at *
  have huf' : u.fields = fs ++ [(k, some v.enc)] := huf
  have hn1 : u.fields.length = fs.length + 1 := by rw [huf', List.length_append]; rfl
  obtain ⟨f1, f2⟩ := hff (k, some v.enc) (by rw [huf']; exact List.mem_append_right _ List.mem_cons_self)
  have f3 : v.enc.length < 2 ^ 32 := by
    have : v.enc.length < 2 ^ 32 - 1 := f2 v.enc rfl
    omega
  dsimp only at f1
  have hlen : u.enc.length < 2 ^ 16 := hu.2.2.2.2.2.2.2
  -- the record up to the value
  have henc : u.enc = Undo.hdrEnc u ++ (keyEnc u.key ++ (compEnc u.fields.length ++ (fs.flatMap fieldEnc ++ (compEnc k ++ compEnc v.enc.length)))) ++
      (v.enc ++ u.tail) := by
    rw [Undo.enc_eq, Undo.vecEnc, if_pos (Or.inl h12)]
    have : u.fields.flatMap fieldEnc = fs.flatMap fieldEnc ++ (compEnc k ++ (compEnc v.enc.length ++ v.enc)) := by
      rw [huf', List.flatMap_append, List.flatMap_cons, List.flatMap_nil, List.append_nil]
      rfl
    rw [this]
    simp only [List.append_assoc]
  generalize hfr : Undo.hdrEnc u ++ (keyEnc u.key ++ (compEnc u.fields.length ++ (fs.flatMap fieldEnc ++ (compEnc k ++ compEnc v.enc.length)))) = front at *
  have hel : u.enc.length = front.length + (v.enc.length + u.tail.length) := by rw [henc, List.length_append, List.length_append]
  obtain ⟨j, hj⟩ : ∃ j, m = front.length + j := ⟨m - front.length, by omega⟩
  have hjv : j < v.enc.length := by omega
  have htake : u.enc.take m = front ++ v.enc.take j := by
    rw [henc, hj, List.take_length_add_append, List.take_append_of_le_length (by omega)]
  rw [htake, ← hfr] at hd
  unfold mlogUndoInsert
  have r1 : read2 s.data pre.length = some u.enc.length := by
    rw [read2_eq, hd, ← List.append_assoc]
    exact readW_beEnc pre _ hlen
  rw [here_bind_some (s := ⟨pre.length, out⟩) r1, addPos_bind, getPos_bind]
  dsimp only
  have hp2 : pre.length + 2 = (pre ++ beEnc 2 u.enc.length).length := by rw [List.length_append, beEnc_length]
  generalize u.enc.length = n at *
  generalize beEnc 2 n = h2 at *
  have key : ∃ p, undoBody cfg s (pre.length + 2) n ⟨pre.length + 2, out⟩ = .ok none ⟨p,
      out ++ [updateText (b! " and ") table.db table.name (shownSets cfg.env.ff table (olds ++ [(k, none)])) (shownConds cfg.env.ff ((getPrimaryKey table.indexes []).map (·.name)) keys)]⟩ := by
    generalize hq : pre.length + 2 = q
    rw [hq] at hp2
    have hd1 : s.data = (pre ++ h2) ++ Undo.hdrEnc u ++ (keyEnc u.key ++ (compEnc u.fields.length ++ (fs.flatMap fieldEnc ++
        (compEnc k ++ (compEnc v.enc.length ++ v.enc.take j))))) := by
      rw [hd]
      simp only [List.append_assoc]
    have hb := undoBody_enc cfg s q n u (Undo.Fits.kind_lt hu) hu.2.1 hn ht hu.2.2.2.2.1 hu.2.2.2.2.2.1 (pre ++ h2) _ hd1
      (by rw [List.length_append]; omega) out
    rw [← hp2] at hb
    rw [hb, htab]
    dsimp only
    have hd2 : s.data = (pre ++ h2 ++ Undo.hdrEnc u) ++ keyEnc u.key ++ (compEnc u.fields.length ++ (fs.flatMap fieldEnc ++
        (compEnc k ++ (compEnc v.enc.length ++ v.enc.take j)))) := by
      rw [hd1]; simp only [List.append_assoc]
    rw [undoTable]
    have hpk := pkLoop_vals cfg s table _ u.key ps k1 (fun v hv => Undo.Fits.key_lt hu hv) _ _ hd2 out
    rw [GoM.bind_ok hpk]
    dsimp only
    rw [if_pos (show u.kind = TRX_UNDO_UPD_EXIST_REC from h12)]
    have hd3 : s.data = (pre ++ h2 ++ Undo.hdrEnc u ++ keyEnc u.key) ++ compEnc u.fields.length ++ (fs.flatMap fieldEnc ++
        (compEnc k ++ (compEnc v.enc.length ++ v.enc.take j))) := by
      rw [hd2]; simp only [List.append_assoc]
    have r2 : matchParseCompressed s.data (pre ++ h2 ++ Undo.hdrEnc u ++ keyEnc u.key).length =
        some ⟨u.fields.length, (compEnc u.fields.length).length, none⟩ := by
      rw [hd3]
      exact mpc_compEnc _ _ (Undo.Fits.fields_lt hu h12)
    rw [here_bind_some (s := ⟨_, out⟩) r2]
    dsimp only
    rw [addPos_bind, ← List.length_append]
    obtain ⟨p, hup⟩ := updLoop_cut cfg s table hl fs cs o1 (fun f hf => hff f (by rw [huf']; exact List.mem_append_left _ hf)) k f1 c hc v.enc f3 j hjv
      (pre ++ h2 ++ Undo.hdrEnc u ++ keyEnc u.key ++ compEnc u.fields.length) (by rw [hd3]; simp only [List.append_assoc]) out
    rw [← hn1] at hup
    have htxt := updateStmt_text cfg.env.ff table (cols := cs ++ [⟨c.name, .nil⟩]) (sets := shownSets cfg.env.ff table (olds ++ [(k, none)])) k2 (by
      have e : shownSets cfg.env.ff table (olds ++ [(k, none)]) = shownSets cfg.env.ff table olds ++ [(c.name, none)] := by
        unfold shownSets
        rw [List.map_append, ← hname]
        rfl
      rw [e]
      exact all2_snoc o2 rfl)
    rw [GoM.bind_ok hup]
    dsimp only
    rw [filter_complete cfg table hw, if_pos rfl, ← htxt]
    exact ⟨_, rfl⟩
  obtain ⟨p, key⟩ := key
  unfold GoM.recover
  rw [key]
  exact ⟨_, rfl⟩

/-- the record of `exUndo`, cut behind the second character of the old value "item": the statement sets the column to NULL -/
example (out : Out) : ∃ p, mlogUndoInsert (exCfg { name := b! "c", ftype := 12, mtype := 15, len := 20 })
    ⟨[22, 0, 5] ++ (beEnc 2 (exUndo (some (b! "item"))).enc.length ++ (exUndo (some (b! "item"))).enc.take ((exUndo (some (b! "item"))).enc.length - 2)), 0⟩ ⟨3, out⟩ =
    .ok none ⟨p, out ++ [b! "update `d`.`t` set `c`=NULL where `id`='7';"]⟩ := by
  refine C48_cut_value (exCfg { name := b! "c", ftype := 12, mtype := 15, len := 20 }) _ (exUndo (some (b! "item"))) (exTable { name := b! "c", ftype := 12, mtype := 15, len := 20 })
    [b! "id"] [.int 4 7] [] 3 (.varchar (b! "item")) (exRecorded _ (.varchar (b! "item")) rfl trivial (by decide)) ⟨Or.inl rfl, Or.inl rfl⟩ ?_ nofun (by decide)
    (by decide) _ (by decide) (by decide) [22, 0, 5] rfl out
  intro v hv
  have : v = .int 4 7 := List.mem_singleton.mp hv
  subst this
  exact ⟨trivial, rfl⟩

/-- A complete record at the end of the log can be lost as well: an update of a DATETIME column, whose decoder reads eight bytes of the five.
The record is processed without a statement, and without a message. -/
theorem C48_datetime_lost : parseRedoBlockData (exCfg { name := b! "c", ftype := 3, mtype := 12, len := 5 })
    ⟨(Item.record false 0 300 (.undoInsert (exUndo (some (datetimeNewEnc ⟨2019, 2, 3, 4, 5, 6⟩))))).enc, 0⟩ [] = .ok none [] ∧
  parseRedoBlockData (exCfg { name := b! "c", ftype := 3, mtype := 12, len := 5 })
    ⟨(Item.record false 0 300 (.undoInsert (exUndo (some (datetimeNewEnc ⟨2019, 2, 3, 4, 5, 6⟩))))).enc ++ [31, 31, 31], 0⟩ [] =
    .ok none [b! "update `d`.`t` set `c`='2019-02-03 04:05:06' where `id`='7';"] := by
  constructor <;> decide

theorem exItems_fits : ∀ it ∈ exItems, it.Fits := by
  have hrec := fun (v : Bytes) (hl : v.length < 100) => exRecorded { name := b! "c", ftype := 12, mtype := 15, len := 20 } (.varchar v) rfl trivial hl
  intro it hit
  simp only [exItems, List.mem_cons, List.not_mem_nil, or_false] at hit
  rcases hit with rfl | rfl | rfl | rfl
  · refine ⟨by decide, by decide, show _ < _ by decide, by decide, ?_⟩
    intro x hx
    cases hx
    decide
  · exact ⟨by decide, by decide, (hrec (b! "it") (by decide)).fits⟩
  · trivial
  · exact ⟨by decide, by decide, (hrec [] (by decide)).fits⟩

theorem exItems_lines : All2 (Lines (exCfg { name := b! "c", ftype := 12, mtype := 15, len := 20 })) exItems
    [[], [b! "update `d`.`t` set `c`='it' where `id`='7';"], [], [b! "update `d`.`t` set `c`='' where `id`='7';"]] := by
  have hrec := fun (v : Bytes) (hl : v.length < 100) => exRecorded { name := b! "c", ftype := 12, mtype := 15, len := 20 } (.varchar v) rfl trivial hl
  have hup : ∀ (v : Bytes), v.length < 100 → ∀ b, Lines (exCfg { name := b! "c", ftype := 12, mtype := 15, len := 20 })
      (.record b 0 300 (.undoInsert (exUndo (some v)))) [_] := fun v hl b => .update (hrec v hl) ⟨Or.inl rfl, Or.inl rfl⟩
    (fun w hw => by
      have : w = .int 4 7 := List.mem_singleton.mp hw
      subst this
      exact ⟨⟨trivial, rfl, nofun⟩, rfl⟩)
    (fun e he w hw => by
      have : e = (3, some (.varchar v)) := List.mem_singleton.mp he
      subst this
      cases hw
      exact ⟨trivial, rfl, nofun⟩)
  exact .cons (.other trivial nofun) (.cons (hup (b! "it") (by decide) _) (.cons (.other trivial nofun) (.cons (hup [] (by decide) _) .nil)))

/-- non-vacuity: records followed by the beginning of a record that aborts the parsing -/
example : ∃ new, updates (outOf (parseRedoBlockData (exCfg { name := b! "c", ftype := 12, mtype := 15, len := 20 }) ⟨exItems.flatMap Item.enc ++ [30, 0, 0, 0, 0], 0⟩ [])) =
    [b! "update `d`.`t` set `c`='it' where `id`='7';", b! "update `d`.`t` set `c`='' where `id`='7';"] ++ new :=
  C48_printed_partial _ 0 exItems _ exItems_fits exItems_lines [30, 0, 0, 0, 0] (by decide) (by decide) []

example : ∃ out', parseRedoBlockData (exCfg { name := b! "c", ftype := 12, mtype := 15, len := 20 })
    ⟨exItems.flatMap Item.enc ++ (headerEnc false 0 300 (.undoInsert (exUndo (some (b! "item")))) ++ (beEnc 2 (exUndo (some (b! "item"))).enc.length ++ (exUndo (some (b! "item"))).enc.take 7)), 0⟩ [] =
    .ok none out' ∧ ∃ new, updates out' = [b! "update `d`.`t` set `c`='it' where `id`='7';", b! "update `d`.`t` set `c`='' where `id`='7';"] ++ new := by
  refine C48_undo_cut_partial (exCfg { name := b! "c", ftype := 12, mtype := 15, len := 20 }) 0 exItems _ exItems_fits exItems_lines false 0 300 (by decide) (by decide)
    (exUndo (some (b! "item"))) (exRecorded { name := b! "c", ftype := 12, mtype := 15, len := 20 } (.varchar (b! "item")) rfl trivial (by decide)).fits 7 (by decide) _ rfl (by decide) [] ?_
  intro t ht
  have : ∀ e t, mlogUndoInsert (exCfg { name := b! "c", ftype := 12, mtype := 15, len := 20 })
    ⟨exItems.flatMap Item.enc ++ (headerEnc false 0 300 (.undoInsert (exUndo (some (b! "item")))) ++ (beEnc 2 (exUndo (some (b! "item"))).enc.length ++ (exUndo (some (b! "item"))).enc.take 7)), 0⟩
    ⟨(exItems.flatMap Item.enc ++ headerEnc false 0 300 (.undoInsert (exUndo (some (b! "item"))))).length, 
      [b! "update `d`.`t` set `c`='it' where `id`='7';", b! "update `d`.`t` set `c`='' where `id`='7';"]⟩ = .ok e t → e = none := by
    intro e t h
    have h1 : (match mlogUndoInsert (exCfg { name := b! "c", ftype := 12, mtype := 15, len := 20 })
      ⟨exItems.flatMap Item.enc ++ (headerEnc false 0 300 (.undoInsert (exUndo (some (b! "item")))) ++ (beEnc 2 (exUndo (some (b! "item"))).enc.length ++ (exUndo (some (b! "item"))).enc.take 7)), 0⟩
      ⟨(exItems.flatMap Item.enc ++ headerEnc false 0 300 (.undoInsert (exUndo (some (b! "item"))))).length, 
        [b! "update `d`.`t` set `c`='it' where `id`='7';", b! "update `d`.`t` set `c`='' where `id`='7';"]⟩ with
      | .ok e _ => e
      | _ => none) = none := by decide
    rw [h] at h1
    exact h1
  cases this _ _ ht

set_option maxRecDepth 4000 in
/-- non-vacuity: an update as the last record of the log -/
example : ∃ new, updates (outOf (parseRedoBlockData (exCfg { name := b! "c", ftype := 12, mtype := 15, len := 20 })
    ⟨exItems.flatMap Item.enc ++ ((Item.record false 0 300 (.undoInsert (exUndo (some (b! "item"))))).enc ++ []), 0⟩ [])) =
    [b! "update `d`.`t` set `c`='it' where `id`='7';", b! "update `d`.`t` set `c`='' where `id`='7';", b! "update `d`.`t` set `c`='item' where `id`='7';"] ++ new := by
  refine C48_last_printed_partial _ 0 exItems _ exItems_fits exItems_lines false 0 300 (by decide) (by decide) _ _ _ _ _
    (exRecorded { name := b! "c", ftype := 12, mtype := 15, len := 20 } (.varchar (b! "item")) rfl trivial (by decide)) ⟨Or.inl rfl, Or.inl rfl⟩ ?_ ?_ [] ?_ (by decide)
    (by decide) []
  · intro v hv
    have : v = .int 4 7 := List.mem_singleton.mp hv
    subst this
    exact ⟨⟨trivial, rfl, nofun⟩, rfl⟩
  · intro e he v hv
    have : e = (3, some (.varchar (b! "item"))) := List.mem_singleton.mp he
    subst this
    cases hv
    exact ⟨trivial, rfl, nofun⟩
  · intro e he v hv
    have : e = (3, some (.varchar (b! "item"))) := List.mem_singleton.mp he
    subst this
    cases hv
    exact Nat.zero_le _

end Verif.Props
