import Verif.Props.Records
import Verif.Proofs.WalkHang
import Verif.Proofs.Poke
/-!
# C22–C25: walking over the records of a page
-/

set_option linter.unusedSimpArgs false

namespace Verif.Props
open Verif Spec

/-! ## Lemmas on definitions of columns -/

theorem describes_skel {c c' : Column} {k : ColDef} (h : skel c' = skel c) (hd : Describes c k) : Describes c' k := by
  obtain ⟨_, h2, _, _, h5, h6, _, _, _⟩ := skel_fields h
  unfold Describes at *
  rw [h2, h5, h6]
  exact hd

theorem all2_describes_skel {cs cs' : List Column} {defs : List ColDef} (h : cs'.map skel = cs.map skel)
    (hd : All2 Describes cs defs) : All2 Describes cs' defs := by
  induction hd generalizing cs' with
  | nil =>
    cases cs' with
    | nil => exact .nil
    | cons => simp at h
  | cons h1 _ ih =>
    cases cs' with
    | nil => simp at h
    | cons c' cs' =>
      simp only [List.map_cons, List.cons.injEq] at h
      exact .cons (describes_skel h.1 h1) (ih h.2)

theorem known_skel {tables : TableMap} {cs cs' : List Column} {defs : List ColDef} (h : cs'.map skel = cs.map skel)
    (hk : Known tables cs defs) : Known tables cs' defs := by
  obtain ⟨hd, c0, table, h0, h1, h2, h3⟩ := hk
  refine ⟨all2_describes_skel h hd, ?_⟩
  have := congrArg (fun l => l[0]?) h
  simp only [List.getElem?_map, h0, Option.map_some] at this
  cases h0' : cs'[0]? with
  | none => rw [h0'] at this; simp at this
  | some c0' =>
    rw [h0'] at this
    simp only [Option.map_some, Option.some.injEq] at this
    obtain ⟨_, _, _, _, _, _, _, h8, _⟩ := skel_fields this
    exact ⟨c0', table, rfl, by rw [h8]; exact h1, h2, h3⟩

theorem decodeCell_static (f : Bool) (S : Out → Out → Prop) (hS : Stable S) (env : Env) (c d : Column) (x : Cell)
    (rest : Bytes) (hcd : skelB f c = skelB f d) (o1 o2 : Out) (hs : S o1 o2) :
    RRel S (fun c' d' => skelB f c' = skelB f c ∧ skelB f d' = skelB f c ∧ SameCell f c' d')
      (decodeCell env c x rest o1) (decodeCell env d x rest o2) := by
  obtain ⟨_, h2, h3, _, h5, _, h7, _, h9⟩ := skel_fields hcd
  have main : ∀ y : Bytes,
      RRel S (fun c' d' => skelB f c' = skelB f c ∧ skelB f d' = skelB f c ∧ SameCell f c' d')
      ((parseData env c.ftype c.mtype (y ++ rest) y.length (getFixedLength c.ftype c.len)
        c.isUnsigned c.isBinary >>= fun p => pure { c with value := p.1, isBinary := p.2 }) o1)
      ((parseData env d.ftype d.mtype (y ++ rest) y.length (getFixedLength d.ftype d.len)
        d.isUnsigned d.isBinary >>= fun p => pure { d with value := p.1, isBinary := p.2 }) o2) := by
    intro y
    rw [← h2, ← h3, ← h5, ← h7]
    refine RRel.bind (parseData_flag S hS env c.ftype c.mtype _ _ _ c.isUnsigned c.isBinary d.isBinary h9 _ _ hs) ?_
    rintro ⟨v, f⟩ ⟨w, g⟩ s t ⟨hv, hf⟩ hst
    obtain ⟨k1, k2, k3⟩ := skel_decoded hcd hv hf
    rw [← h2, ← h3, ← h5, ← h7] at k2 k3
    exact .ok ⟨k1, k2, hv, fun hft _ => k3 hft⟩ hst
  cases x with
  | null => exact .ok ⟨rfl, hcd.symm, rfl, fun _ h => absurd rfl h⟩ hs
  | val v => exact main v
  | ext v => exact main v

/-- Decoding a row does not depend on the values left in the columns. -/
theorem decodeRow_static (f : Bool) (S : Out → Out → Prop) (hS : Stable S) (env : Env) (cs ds : List Column) (row : Row)
    (post : Bytes) (h : cs.map (skelB f) = ds.map (skelB f)) (hl : cs.length = row.length) (o1 o2 : Out) (hs : S o1 o2) :
    RRel S (fun cs' ds' => cs'.map (skelB f) = cs.map (skelB f) ∧ ds'.map (skelB f) = cs.map (skelB f) ∧
        All2 (SameCell f) cs' ds')
      (decodeRow env cs row post o1) (decodeRow env ds row post o2) := by
  induction cs generalizing ds row o1 o2 with
  | nil =>
    cases ds with
    | cons => simp at h
    | nil =>
      cases row with
      | cons => simp at hl
      | nil => exact .ok ⟨rfl, rfl, .nil⟩ hs
  | cons c cs ih =>
    cases ds with
    | nil => simp at h
    | cons d ds =>
      cases row with
      | nil => simp at hl
      | cons x row =>
        simp only [List.map_cons, List.cons.injEq] at h
        unfold decodeRow
        refine RRel.bind (decodeCell_static f S hS env c d x.2 _ h.1 _ _ hs) ?_
        rintro c' d' s t ⟨hc, hd, hv⟩ hst
        refine RRel.bind (ih ds row h.2 (by simpa using hl) s t hst) ?_
        rintro cs' ds' s t ⟨hcs, hds, hv'⟩ hst
        exact .ok ⟨by rw [List.map_cons, hc, hcs, List.map_cons], by rw [List.map_cons, hd, hds, List.map_cons],
          .cons hv hv'⟩ hst

theorem sameCells_values {f : Bool} {cs ds : List Column} (h : All2 (SameCell f) cs ds) :
    cs.map (·.value) = ds.map (·.value) := by
  induction h with
  | nil => rfl
  | cons h _ ih => rw [List.map_cons, List.map_cons, ih, h.1]

theorem stable_eq : Stable (fun a b => a = b) := fun _ _ _ h => by rw [h]

theorem decodeRow_skel {env : Env} {cs cs' : List Column} {row : Row} {post : Bytes} {out out' : Out}
    (h : decodeRow env cs row post out = .ok cs' out') (hl : cs.length = row.length) : cs'.map skel = cs.map skel := by
  have := decodeRow_static false (fun a b => a = b) stable_eq env cs cs row post rfl hl out out rfl
  rw [h] at this
  cases this with
  | ok hp _ => exact hp.1

/-! ## C22, C23: the records visited -/

/-- **C22, the records visited.** In print mode, on every page whose records are linked from infimum to supremum, the
decoder is applied exactly to the linked records, in chain order, until one is rejected. -/
theorem C22_visits (env : Env) (tables : TableMap) (d : Bytes) (free : Nat) (hd : d.length = 16384) (os : List Nat)
    (hl : Linked d (isCompact d) (infimumAt (isCompact d)) os) (s : PState) :
    parsePage env tables d false free s = visit env tables d (isCompact d) os s :=
  parsePage_print env tables d free hd os hl s

/-- **C22, each once.** The linked records of a page are distinct. -/
theorem C22_once (d : Bytes) (c : Bool) (o : Nat) (os : List Nat) (hl : Linked d c o os) : os.Nodup := hl.nodup

/-- **C23, the records visited.** In recovery mode the decoder is applied exactly to the records of the free list, in list
order, until one is rejected. -/
theorem C23_visits (env : Env) (tables : TableMap) (d : Bytes) (free : Nat) (hd : d.length = 16384) (os : List Nat)
    (hl : FreeList d (isCompact d) free os) (s : PState) :
    parsePage env tables d true free s = visit env tables d (isCompact d) os s :=
  parsePage_recover env tables d free hd os hl s

theorem C23_once (d : Bytes) (c : Bool) (o : Nat) (os : List Nat) (hl : FreeList d c o os) : os.Nodup := hl.nodup

theorem decodeRowP_run (env : Env) (row : Row) (post : Bytes) (s : PState) : decodeRowP env row post s =
    match decodeRow env s.cols row post s.out with
    | .ok cs out => .ok cs ⟨cs, out⟩
    | .panic out => .panic { s with out := out }
    | .hang out => .hang { s with out := out } := rfl

/-- the records of a page: the cells of the row at each offset, and the bytes that follow it on the page -/
def storedRows (d : Bytes) (defs : List ColDef) : List Nat → List (List Cell) → List (Row × Bytes)
  | o :: os, r :: rs => (rowOf defs r, d.drop (o + (rowData (rowOf defs r)).length)) :: storedRows d defs os rs
  | _, _ => []

/-- A COMPACT record of the table stored at `o`. -/
def CompactRow (d : Bytes) (defs : List ColDef) (o : Nat) (cells : List Cell) : Prop :=
  Storable defs cells ∧ CompactAt d o (rowOf defs cells)

theorem visit_compact (env : Env) (tables : TableMap) (defs : List ColDef) (d : Bytes) (os : List Nat)
    (rows : List (List Cell)) (h3 : 3 ≤ defs.length) (hd : d.length ≤ 16384) (hr : ∀ k ∈ defs, k.kind.Readable)
    (hrows : All2 (CompactRow d defs) os rows) (s : PState) (hk : Known tables s.cols defs) :
    visit env tables d true os s = decodeRows env (storedRows d defs os rows) s := by
  induction hrows generalizing s with
  | nil => rfl
  | @cons o cells os rows ho _ ih =>
    have h1 := C20_compact_rows_partial env tables defs cells d o s hk ho.1 h3 hd ho.2 hr
    have hlen : s.cols.length = (rowOf defs cells).length := by rw [all2_length hk.desc, rowOf_length ho.1]
    unfold visit storedRows decodeRows
    simp only [GoM.bind_run, h1, decodeRowP_run]
    cases hdr : decodeRow env s.cols (rowOf defs cells) (d.drop (o + (rowData (rowOf defs cells)).length)) s.out with
    | panic out => rfl
    | hang out => rfl
    | ok cs out =>
      simp only [rowResult]
      have := ih ⟨cs, out⟩ (known_skel (decodeRow_skel hdr hlen) hk)
      simp only [GoM.bind_run, this]

/-- The full claim of C22 for COMPACT pages: for every table definition, the rows returned are those stored at the linked
records, one per record, in chain order. -/
def C22_statement : Prop :=
  ∀ (env : Env) (tables : TableMap) (defs : List ColDef) (d : Bytes) (free : Nat) (os : List Nat) (rows : List (List Cell))
    (s : PState), Known tables s.cols defs → 3 ≤ defs.length → d.length = 16384 → isCompact d = true →
    Linked d true (infimumAt true) os → All2 (CompactRow d defs) os rows →
    parsePage env tables d false free s = decodeRows env (storedRows d defs os rows) s

/-- **C22 (partial).** True for all tables whose column types the decoder can read.  Missing: the types excluded in C20;
a record that is rejected because of such a column also ends the walk, so that the rest of the page is lost
(`C22_false`). -/
theorem C22_compact_page_partial (env : Env) (tables : TableMap) (defs : List ColDef) (d : Bytes) (free : Nat)
    (os : List Nat) (rows : List (List Cell)) (s : PState) (hk : Known tables s.cols defs) (h3 : 3 ≤ defs.length)
    (hd : d.length = 16384) (hc : isCompact d = true) (hl : Linked d true (infimumAt true) os)
    (hrows : All2 (CompactRow d defs) os rows) (hr : ∀ k ∈ defs, k.kind.Readable) :
    parsePage env tables d false free s = decodeRows env (storedRows d defs os rows) s := by
  have := C22_visits env tables d free hd os (by rw [hc]; exact hl) s
  rw [this, hc]
  exact visit_compact env tables defs d os rows h3 (by omega) hr hrows s hk

/-- What `decodeRows` means: if it succeeds there is one row for each record, and its values are those of the record
decoded on its own. -/
theorem decodeRows_values (env : Env) (rows : List (Row × Bytes)) (s s' : PState) (rs : List (List Column))
    (hl : ∀ r ∈ rows, s.cols.length = r.1.length) (h : decodeRows env rows s = .ok rs s') (t : PState)
    (ht : t.cols.map skel = s.cols.map skel) :
    All2 (fun cs r => ∃ cs' out', decodeRow env t.cols r.1 r.2 [] = .ok cs' out' ∧
      cs.map (·.value) = cs'.map (·.value)) rs rows := by
  induction rows generalizing s s' rs with
  | nil => cases h; exact .nil
  | cons r rows ih =>
    obtain ⟨row, post⟩ := r
    unfold decodeRows at h
    obtain ⟨cs, s1, h1, h2⟩ := GoM.bind_eq_ok h
    obtain ⟨rs', s2, h3, h4⟩ := GoM.bind_eq_ok h2
    cases h4
    have hlr := hl (row, post) (by simp)
    have hrel := decodeRow_static false (fun _ _ => True) stable_true env s.cols t.cols row post ht.symm hlr s.out [] trivial
    unfold decodeRowP at h1
    cases hd : decodeRow env s.cols row post s.out with
    | panic out => rw [hd] at h1; cases h1
    | hang out => rw [hd] at h1; cases h1
    | ok cs1 out =>
      rw [hd] at h1 hrel
      cases h1
      generalize hd2 : decodeRow env t.cols row post [] = r2 at hrel
      cases hrel with
      | @ok _ ds _ out2 hp _ =>
        obtain ⟨p1, p2, p3⟩ := hp
        refine .cons ⟨ds, out2, hd2, sameCells_values p3⟩ (ih ⟨cs, out⟩ _ _ ?_ h3 (by rw [ht]; exact p1.symm))
        intro r hr
        have := hl r (by simp [hr])
        have e := congrArg List.length p1
        simp at e
        rw [← this]
        exact e

theorem storedRows_length (d : Bytes) (defs : List ColDef) (os : List Nat) (rows : List (List Cell))
    (hrows : All2 (CompactRow d defs) os rows) : (storedRows d defs os rows).length = os.length := by
  induction hrows with
  | nil => rfl
  | cons _ _ ih => simp [storedRows, ih]

theorem storedRows_rowLength (d : Bytes) (defs : List ColDef) (os : List Nat) (rows : List (List Cell))
    (hrows : All2 (CompactRow d defs) os rows) : ∀ r ∈ storedRows d defs os rows, r.1.length = defs.length := by
  induction hrows with
  | nil => simp [storedRows]
  | cons h _ ih =>
    intro r hr
    rcases List.mem_cons.mp hr with rfl | hr
    · exact rowOf_length h.1
    · exact ih r hr

/-- **C22, the rows.** When parsing a COMPACT page returns, it has returned exactly one row per linked record, in chain
order, and the values of each row are what the dictionary's columns give for that record alone. -/
theorem C22_rows_partial (env : Env) (tables : TableMap) (defs : List ColDef) (d : Bytes) (free : Nat)
    (os : List Nat) (rows : List (List Cell)) (s s' : PState) (rs : List (List Column)) (hk : Known tables s.cols defs)
    (h3 : 3 ≤ defs.length) (hd : d.length = 16384) (hc : isCompact d = true) (hl : Linked d true (infimumAt true) os)
    (hrows : All2 (CompactRow d defs) os rows) (hr : ∀ k ∈ defs, k.kind.Readable)
    (h : parsePage env tables d false free s = .ok rs s') :
    rs.length = os.length ∧
    All2 (fun cs r => ∃ cs' out', decodeRow env s.cols r.1 r.2 [] = .ok cs' out' ∧
      cs.map (·.value) = cs'.map (·.value)) rs (storedRows d defs os rows) := by
  rw [C22_compact_page_partial env tables defs d free os rows s hk h3 hd hc hl hrows hr] at h
  have := decodeRows_values env _ s s' rs (fun r hr => by
    rw [storedRows_rowLength d defs os rows hrows r hr, all2_length hk.desc]) h s rfl
  exact ⟨by rw [all2_length this, storedRows_length d defs os rows hrows], this⟩

/-! ### REDUNDANT pages -/

/-- A REDUNDANT record of the table stored at `o`, with the width of its end offsets. -/
def OldRow (d : Bytes) (defs : List ColDef) (o : Nat) (r : Nat × List OldCell) : Prop :=
  OldStorable defs r.2 ∧ RedundantAt d o r.1 r.2 ∧ (r.1 = 1 ∧ (oldData r.2).length ≤ 127 ∨ r.1 = 2)

/-- the rows as the decoder sees them: NULLs replaced by the bytes in their place -/
def storedOldRows (d : Bytes) : List Nat → List (Nat × List OldCell) → List (Row × Bytes)
  | o :: os, r :: rs => (viewOld r.2, d.drop (o + (oldData r.2).length)) :: storedOldRows d os rs
  | _, _ => []

theorem decodeOld_eq (env : Env) (cols : List Column) (r : List OldCell) (post : Bytes) :
      decodeOld env cols (r.map fun x => { x with null := false }) post = decodeRow env cols (viewOld r) post := by
  induction r generalizing cols with
  | nil => cases cols <;> rfl
  | cons x r ih =>
    cases cols with
    | nil => rfl
    | cons c cs =>
      have hv : viewOld (x :: r) = (⟨false, .fixed 0⟩, .val x.bytes) :: viewOld r := rfl
      have ho : oldData (r.map fun x => { x with null := false }) = oldData r := by
        simp [oldData, List.flatMap_map]
      rw [List.map_cons, decodeOld, hv, decodeRow, ih, rowData_viewOld, ho]
      rfl

theorem visit_redundant (env : Env) (tables : TableMap) (defs : List ColDef) (d : Bytes) (os : List Nat)
    (rows : List (Nat × List OldCell)) (h3 : 3 ≤ defs.length) (hd : d.length ≤ 16384)
    (hr : ∀ k ∈ defs, ∀ m, k.kind = .varcharLatin1 m → m = 0)
    (hrows : All2 (OldRow d defs) os rows) (s : PState) (hk : All2 Describes s.cols defs) :
    visit env tables d false os s = decodeRows env (storedOldRows d os rows) s := by
  induction hrows generalizing s with
  | nil => rfl
  | @cons o r os rows ho _ ih =>
    have h1 := C21_nulls_ignored env tables defs r.2 d o r.1 s hk ho.1 h3 hd ho.2.1 ho.2.2 hr
    rw [decodeOld_eq] at h1
    have hlen : s.cols.length = (viewOld r.2).length := by rw [all2_length hk, viewOld_length, all2_length ho.1]
    unfold visit storedOldRows decodeRows
    simp only [GoM.bind_run, h1, decodeRowP_run]
    cases hdr : decodeRow env s.cols (viewOld r.2) (d.drop (o + (oldData r.2).length)) s.out with
    | panic out => rfl
    | hang out => rfl
    | ok cs out =>
      simp only [rowResult]
      have := ih ⟨cs, out⟩ (all2_describes_skel (decodeRow_skel hdr hlen) hk)
      simp only [GoM.bind_run, this]

/-- **C22 for REDUNDANT pages (partial).** The rows returned are those of the linked records, in chain order, for tables
without latin1 VARCHAR columns; a NULL is replaced by the bytes reserved for it (see C21). -/
theorem C22_redundant_page_partial (env : Env) (tables : TableMap) (defs : List ColDef) (d : Bytes) (free : Nat)
    (os : List Nat) (rows : List (Nat × List OldCell)) (s : PState) (hk : All2 Describes s.cols defs) (h3 : 3 ≤ defs.length)
    (hd : d.length = 16384) (hc : isCompact d = false) (hl : Linked d false (infimumAt false) os)
    (hrows : All2 (OldRow d defs) os rows) (hr : ∀ k ∈ defs, ∀ m, k.kind = .varcharLatin1 m → m = 0) :
    parsePage env tables d false free s = decodeRows env (storedOldRows d os rows) s := by
  have := C22_visits env tables d free hd os (by rw [hc]; exact hl) s
  rw [this, hc]
  exact visit_redundant env tables defs d os rows h3 (by omega) hr hrows s hk

/-- The full claim of C23 for COMPACT pages. -/
def C23_statement : Prop :=
  ∀ (env : Env) (tables : TableMap) (defs : List ColDef) (d : Bytes) (free : Nat) (os : List Nat) (rows : List (List Cell))
    (s : PState), Known tables s.cols defs → 3 ≤ defs.length → d.length = 16384 → isCompact d = true →
    FreeList d true free os → All2 (CompactRow d defs) os rows →
    parsePage env tables d true free s = decodeRows env (storedRows d defs os rows) s

/-- **C23 (partial).** True for all tables whose column types the decoder can read; see C22. -/
theorem C23_compact_page_partial (env : Env) (tables : TableMap) (defs : List ColDef) (d : Bytes) (free : Nat)
    (os : List Nat) (rows : List (List Cell)) (s : PState) (hk : Known tables s.cols defs) (h3 : 3 ≤ defs.length)
    (hd : d.length = 16384) (hc : isCompact d = true) (hl : FreeList d true free os)
    (hrows : All2 (CompactRow d defs) os rows) (hr : ∀ k ∈ defs, k.kind.Readable) :
    parsePage env tables d true free s = decodeRows env (storedRows d defs os rows) s := by
  have := C23_visits env tables d free hd os (by rw [hc]; exact hl) s
  rw [this, hc]
  exact visit_compact env tables defs d os rows h3 (by omega) hr hrows s hk

/-- **C23 for REDUNDANT pages (partial).** -/
theorem C23_redundant_page_partial (env : Env) (tables : TableMap) (defs : List ColDef) (d : Bytes) (free : Nat)
    (os : List Nat) (rows : List (Nat × List OldCell)) (s : PState) (hk : All2 Describes s.cols defs) (h3 : 3 ≤ defs.length)
    (hd : d.length = 16384) (hc : isCompact d = false) (hl : FreeList d false free os)
    (hrows : All2 (OldRow d defs) os rows) (hr : ∀ k ∈ defs, ∀ m, k.kind = .varcharLatin1 m → m = 0) :
    parsePage env tables d true free s = decodeRows env (storedOldRows d os rows) s := by
  have := C23_visits env tables d free hd os (by rw [hc]; exact hl) s
  rw [this, hc]
  exact visit_redundant env tables defs d os rows h3 (by omega) hr hrows s hk

/-- **C23, the rows.** -/
theorem C23_rows_partial (env : Env) (tables : TableMap) (defs : List ColDef) (d : Bytes) (free : Nat)
    (os : List Nat) (rows : List (List Cell)) (s s' : PState) (rs : List (List Column)) (hk : Known tables s.cols defs)
    (h3 : 3 ≤ defs.length) (hd : d.length = 16384) (hc : isCompact d = true) (hl : FreeList d true free os)
    (hrows : All2 (CompactRow d defs) os rows) (hr : ∀ k ∈ defs, k.kind.Readable)
    (h : parsePage env tables d true free s = .ok rs s') :
    rs.length = os.length ∧
    All2 (fun cs r => ∃ cs' out', decodeRow env s.cols r.1 r.2 [] = .ok cs' out' ∧
      cs.map (·.value) = cs'.map (·.value)) rs (storedRows d defs os rows) := by
  rw [C23_compact_page_partial env tables defs d free os rows s hk h3 hd hc hl hrows hr] at h
  have := decodeRows_values env _ s s' rs (fun r hr => by
    rw [storedRows_rowLength d defs os rows hrows r hr, all2_length hk.desc]) h s rfl
  exact ⟨by rw [all2_length this, storedRows_length d defs os rows hrows], this⟩

/-! ## C24 -/

/-- The full claim of C24. -/
def C24_statement : Prop :=
  ∀ (env : Env) (tables : TableMap) (d : Bytes) (isRecovery : Bool) (free : Nat) (s s' : PState), d.length = 16384 →
    parsePage env tables d isRecovery free s ≠ .hang s'

theorem stepC_bound (env : Env) (tables : TableMap) (d : Bytes) (c : Bool) (K : List Column) :
    ∀ o o', stepC env tables d c K o = some o' → o < 16378 := fun o o' h => (stepC_lt env tables d c K o o' h).1

/-- `parsePage` is a walk from some offset. -/
theorem parsePage_walk (env : Env) (tables : TableMap) (d : Bytes) (isRecovery : Bool) (free : Nat) (s : PState) :
    (∃ c o, parsePage env tables d isRecovery free s = walk env tables d c walkFuel o [] s ∧
      (112 ≤ d.length → c = isCompact d ∧ (o < 16384 → o = firstRecord d isRecovery free))) ∨
    parsePage env tables d isRecovery free s = .panic s := by
  unfold parsePage
  rw [GoM.bind_run]
  cases hc : pageIsCompact d with
  | none => right; rfl
  | some v =>
    simp only [GoM.lift_some, GoM.bind_run]
    cases hr : read2 d (pageInfimum (v != 0) - 2) with
    | none => right; rfl
    | some b =>
      left
      refine ⟨v != 0, _, rfl, fun hl => ?_⟩
      obtain ⟨v', hv', h2⟩ := pageIsCompact_eq d (by omega)
      rw [hc] at hv'
      cases hv'
      refine ⟨h2, fun ho => ?_⟩
      unfold firstRecord
      cases isRecovery with
      | true => rfl
      | false =>
        have hb : b = link d (infimumAt (v != 0)) := by
          rw [read2_eq, Verif.read_at d _ (by unfold pageInfimum; split <;> omega)] at hr
          injection hr with hr
          rw [← hr]
          cases v != 0 <;> rfl
        subst hb
        rw [← h2]
        revert ho
        unfold follow
        cases v != 0 with
        | true =>
          intro ho
          have h99 : pageInfimum true = infimumAt true := by decide
          simp only [if_true, Bool.false_eq_true, if_false, h99] at ho ⊢
          omega
        | false => intro _; rfl

/-- **The bound on the number of records in the model is harmless:** if the model reports that the walk does not end, then
the walk does not end within any number of records. -/
theorem C24_hang_is_forever (env : Env) (tables : TableMap) (d : Bytes) (c : Bool) (o : Nat) (rows : List (List Column))
    (s s' : PState) (h : walk env tables d c walkFuel o rows s = .hang s') (n : Nat) :
    ∃ s'', walk env tables d c n o rows s = .hang s'' := by
  rw [walk_hang_iff env tables d c _ n o rows s rfl]
  have := (walk_hang_iff env tables d c _ walkFuel o rows s rfl).mp ⟨s', h⟩
  exact steps_forever _ 16378 (stepC_bound env tables d c _) o (steps_le _ (by unfold walkFuel; omega) this) n

theorem walk_rows_le (env : Env) (tables : TableMap) (d : Bytes) (c : Bool) (fuel o : Nat) (rows rs : List (List Column))
    (s s' : PState) (h : walk env tables d c fuel o rows s = .ok rs s') : rs.length ≤ rows.length + fuel := by
  induction fuel generalizing o rows s with
  | zero => cases h
  | succ fuel ih =>
    unfold walk at h
    split at h
    · obtain ⟨x, s1, h1, h2⟩ := GoM.bind_eq_ok h
      cases x with
      | none => cases h2; omega
      | some cs =>
        obtain ⟨r, s2, h3, h4⟩ := GoM.bind_eq_ok h2
        cases r with
        | none => cases h4; simp
        | some o' =>
          have := ih o' _ s2 h4
          simp at this
          omega
    · obtain ⟨x, s1, h1, h2⟩ := GoM.bind_eq_ok h
      cases h2; omega

theorem walk_succ (env : Env) (tables : TableMap) (d : Bytes) (c : Bool) (fuel o : Nat) (rows : List (List Column))
    (s : PState) (hc : o < 16384 - 6 ∧ o ≠ pageSupremum c) :
    walk env tables d c (fuel + 1) o rows s = (parseOne env tables d c o >>= fun x => match x with
      | none => pure rows
      | some cs => (GoM.lift (nextOffset d c o) >>= fun r => match r with
        | none => pure (rows ++ [cs])
        | some o' => walk env tables d c fuel o' (rows ++ [cs]))) s := by
  conv => lhs; unfold walk
  rw [if_pos hc]
  rfl

theorem bind_congr_noHang {σ α β : Type} {m : GoM σ α} {f g : α → GoM σ β} {s : σ}
    (h : ∀ s', (m >>= f) s ≠ .hang s')
    (hfg : ∀ a s1, m s = .ok a s1 → (∀ s', f a s1 ≠ .hang s') → g a s1 = f a s1) : (m >>= g) s = (m >>= f) s := by
  rw [GoM.bind_run] at h ⊢
  rw [GoM.bind_run]
  cases hm : m s with
  | panic _ => rfl
  | hang _ => rfl
  | ok a s1 =>
    rw [hm] at h
    exact hfg a s1 hm h

theorem walk_stop (env : Env) (tables : TableMap) (d : Bytes) (c : Bool) (fuel o : Nat) (rows : List (List Column))
    (hc : ¬ (o < 16384 - 6 ∧ o ≠ pageSupremum c)) :
    walk env tables d c (fuel + 1) o rows = (GoM.lift (read2 d (38 + 24)) >>= fun _ => pure rows) := by
  conv => lhs; unfold walk
  rw [if_neg hc]

theorem steps_mono_walk (env : Env) (tables : TableMap) (d : Bytes) (c : Bool) (fuel k o : Nat) (rows : List (List Column))
    (s : PState) (h : ∀ s', walk env tables d c fuel o rows s ≠ .hang s') :
    walk env tables d c (fuel + k) o rows s = walk env tables d c fuel o rows s := by
  induction fuel generalizing o rows s with
  | zero => exact absurd rfl (h s)
  | succ fuel ih =>
    rw [Nat.add_right_comm]
    by_cases hc : o < 16384 - 6 ∧ o ≠ pageSupremum c
    · rw [walk_succ env tables d c fuel o rows s hc] at h
      rw [walk_succ env tables d c fuel o rows s hc, walk_succ env tables d c (fuel + k) o rows s hc]
      refine bind_congr_noHang h fun x s1 _ hx => ?_
      cases x with
      | none => rfl
      | some cs =>
        refine bind_congr_noHang hx fun y s2 _ hy => ?_
        cases y with
        | none => rfl
        | some o' => exact ih o' _ s2 hy
    · rw [walk_stop env tables d c fuel o rows hc, walk_stop env tables d c (fuel + k) o rows hc]

/-- **C24, bounded.** Parsing that ends does so after fewer than 16379 records. -/
theorem C24_bounded (env : Env) (tables : TableMap) (d : Bytes) (isRecovery : Bool) (free : Nat) (s s' : PState)
    (rs : List (List Column)) (h : parsePage env tables d isRecovery free s = .ok rs s') : rs.length ≤ 16379 := by
  rcases parsePage_walk env tables d isRecovery free s with ⟨c, o, hw, _⟩ | hw
  · rw [hw] at h
    obtain ⟨N, hN⟩ : ∃ N, N = 16379 := ⟨_, rfl⟩
    have hF : walkFuel = N + 5 := by rw [hN]; rfl
    rw [hF] at h
    have hnh : ¬ ∃ s', walk env tables d c N o [] s = .hang s' := by
      rw [walk_hang_iff env tables d c _ N o [] s rfl]
      intro hs
      have hf := steps_forever _ 16378 (stepC_bound env tables d c _) o (by have hs := hs; rw [hN] at hs; exact hs) (N + 5)
      obtain ⟨s'', hh⟩ := (walk_hang_iff env tables d c _ (N + 5) o [] s rfl).mpr hf
      rw [h] at hh
      cases hh
    have he := steps_mono_walk env tables d c N 5 o [] s (fun s' hs' => hnh ⟨s', hs'⟩)
    rw [h] at he
    have hle := walk_rows_le env tables d c N o [] rs s s' he.symm
    rw [List.length_nil] at hle
    omega
  · rw [hw] at h; cases h

theorem nextOffset_some (d : Bytes) (c : Bool) (o o' : Nat) (ho : o < 16384) (hd : d.length ≤ 16384)
    (h : nextOffset d c o = some (some o')) : link d o ≠ 0 ∧ (o' = follow d c o ∨ 16384 ≤ o') := by
  have h2 : 2 ≤ o ∧ o ≤ d.length := by
    unfold nextOffset at h
    rw [read2_eq] at h
    unfold readW at h
    split at h
    · rename_i hh
      unfold sub64 at hh
      by_cases h2 : 2 ≤ o
      · exact ⟨h2, by omega⟩
      · omega
    · cases h
  have hlt := link_lt d o
  unfold nextOffset at h
  rw [read_link d o h2.1 h2.2 (by omega)] at h
  simp only [Option.bind_eq_bind, Option.bind_some] at h
  by_cases h0 : link d o = 0
  · rw [if_pos h0] at h; cases h
  · rw [if_neg h0] at h
    refine ⟨h0, ?_⟩
    simp only [Option.pure_def, Option.some.injEq] at h
    unfold follow
    cases c with
    | true =>
      simp only [if_true] at h ⊢
      by_cases hb : link d o > 32768
      · rw [if_pos hb] at h
        rw [← h]
        unfold u64 sub64
        omega
      · rw [if_neg hb] at h
        rw [← h]
        unfold u64
        omega
    | false =>
      simp only [Bool.false_eq_true, if_false] at h ⊢
      by_cases hb : link d o > 32768
      · rw [if_pos hb] at h
        rw [← h]
        unfold sub64
        omega
      · rw [if_neg hb] at h
        left; exact h.symm

/-- **C24 (partial).** On a page on which the links from the first record do not lead into a cycle, parsing ends.  Missing:
pages with such a cycle, on which the code loops forever (`C24_false`, `C24_hang_is_forever`). -/
theorem C24_acyclic_partial (env : Env) (tables : TableMap) (d : Bytes) (isRecovery : Bool) (free : Nat) (s s' : PState)
    (hd : d.length = 16384) (hac : ¬ LeadsToCycle d (isCompact d) (firstRecord d isRecovery free)) :
    parsePage env tables d isRecovery free s ≠ .hang s' := by
  intro h
  rcases parsePage_walk env tables d isRecovery free s with ⟨c, o, hw, hc⟩ | hw
  · rw [hw] at h
    obtain ⟨hc, hfirst⟩ := hc (by omega)
    generalize firstRecord d isRecovery free = start at hac hfirst
    rw [← hc] at hac
    have hs := (walk_hang_iff env tables d c _ walkFuel o [] s rfl).mp ⟨s', h⟩
    obtain ⟨i, m, x, hm, hreach, hcyc⟩ := steps_pigeon _ 16378 (stepC_bound env tables d c (s.cols.map skel)) o
      (steps_le _ (by unfold walkFuel; omega) hs)
    have key : ∀ m y z, 0 < m → z < 16384 → steps (stepC env tables d c (s.cols.map skel)) m y = some z →
        Relation.TransGen (Next d c) y z := by
      intro m
      induction m with
      | zero => intro y z h; omega
      | succ m ih =>
        intro y z _ hz hst
        unfold steps at hst
        cases hf : stepC env tables d c (s.cols.map skel) y with
        | none => rw [hf] at hst; cases hst
        | some y' =>
          rw [hf, Option.bind_some] at hst
          obtain ⟨h1, h2, h3⟩ := stepC_lt env tables d c _ y y' hf
          obtain ⟨h4, h5⟩ := nextOffset_some d c y y' (by omega) (by omega) h3
          have hy' : y' < 16384 := by
            cases m with
            | zero => unfold steps at hst; cases hst; exact hz
            | succ m =>
              unfold steps at hst
              cases hf' : stepC env tables d c (s.cols.map skel) y' with
              | none => rw [hf'] at hst; cases hst
              | some _ =>
                have := stepC_bound env tables d c _ _ _ hf'
                omega
          have hn : Next d c y y' := ⟨h1, h2, h4, by rcases h5 with h | h; exacts [h, by omega]⟩
          cases m with
          | zero => unfold steps at hst; cases hst; exact .single hn
          | succ m => exact .head hn (ih y' z (by omega) hz hst)
    obtain ⟨m', rfl⟩ : ∃ m', m = m' + 1 := ⟨m - 1, by omega⟩
    have hxlt : x < 16384 := by
      have h0 := hcyc
      unfold steps at h0
      cases hf : stepC env tables d c (s.cols.map skel) x with
      | none => rw [hf] at h0; cases h0
      | some y => have := stepC_bound env tables d c _ _ _ hf; omega
    have ho : o < 16384 := by
      have h0 := steps_le _ (show 1 ≤ walkFuel by unfold walkFuel; omega) hs
      unfold steps at h0
      cases hf : stepC env tables d c (s.cols.map skel) o with
      | none => rw [hf] at h0; cases h0
      | some y => have := stepC_bound env tables d c _ _ _ hf; omega
    rw [← hfirst ho] at hac
    refine hac ⟨x, ?_, key _ x x hm hxlt hcyc⟩
    cases i with
    | zero => cases hreach; exact .refl
    | succ i => exact (key _ o x (by omega) hxlt hreach).to_reflTransGen
  · rw [hw] at h; cases h

end Verif.Props
