import Verif.Props.Walk
/-!
# C22–C25: counterexamples and instances on concrete pages
-/

set_option linter.unusedSimpArgs false

namespace Verif.Props
open Verif Spec

theorem sub_poke_in (d : Bytes) (o : Nat) (e : Bytes) (h : o ≤ d.length) (i n : Nat) (hn : i + n ≤ e.length) :
    sub (poke d o e) (o + i) n = sub e i n := by
  unfold sub poke
  rw [List.append_assoc, ← List.drop_drop, List.drop_left' (by simp; omega), List.drop_append_of_le_length (by omega),
    List.take_append_of_le_length (by simp; omega)]

/-! ### C22, C23: a latin1 VARCHAR -/

def latinDefs : List ColDef := ⟨.varcharLatin1 10, false⟩ :: trxAndRoll
def latinCells : List Cell := .val (b! "ab") :: trxAndRollCells

/-- the record as it lies in the page, followed by some zero bytes -/
def latinRecord (next : Nat) : Bytes :=
  newRecord (rowOf latinDefs latinCells) next ++ rowData (rowOf latinDefs latinCells) ++ List.replicate 8 0

/-- a COMPACT page with the record at 200, linked between infimum and supremum if `next` leads there -/
def latinPage (next : Nat) : Bytes := poke (poke (poke blank 42 [128, 3]) 97 (beEnc 2 101)) 194 (latinRecord next)

theorem latinRecord_length (next : Nat) : (latinRecord next).length = 29 := by
  unfold latinRecord newRecord compactPrefix
  simp only [List.length_append, beEnc_length', List.length_replicate]
  decide

theorem latin_len1 : (poke blank 42 [128, 3]).length = 16384 := by
  rw [poke_length _ _ _ (by rw [blank_length]; decide), blank_length]
theorem latin_len2 : (poke (poke blank 42 [128, 3]) 97 (beEnc 2 101)).length = 16384 := by
  rw [poke_length _ _ _ (by rw [latin_len1]; decide), latin_len1]
theorem latinPage_length (next : Nat) : (latinPage next).length = 16384 := by
  unfold latinPage
  rw [poke_length _ _ _ (by rw [latin_len2, latinRecord_length]; decide), latin_len2]

theorem latinPage_compact (next : Nat) : isCompact (latinPage next) = true := by
  unfold isCompact latinPage
  rw [numAt_sub, sub_poke_before _ _ _ _ _ (by decide) (by rw [latin_len2]; decide),
    sub_poke_before _ _ _ _ _ (by decide) (by rw [latin_len1]; decide), sub_poke _ _ _ (by rw [blank_length]; decide) 2 rfl]
  decide

theorem latinPage_link0 (next : Nat) : link (latinPage next) 99 = 101 := by
  unfold link latinPage
  rw [numAt_sub, sub_poke_before _ _ _ _ _ (by decide) (by rw [latin_len2]; decide),
    show (99 - 2 : Nat) = 97 from rfl, sub_poke _ _ _ (by rw [latin_len1]; decide) 2 rfl]
  decide

theorem latinPage_sub (next i n : Nat) (h : i + n ≤ 29) : sub (latinPage next) (194 + i) n = sub (latinRecord next) i n :=
  sub_poke_in _ _ _ (by rw [latin_len2]; decide) _ _ (by rw [latinRecord_length]; exact h)

theorem latinRecord_link (next : Nat) : sub (latinRecord next) 4 2 = beEnc 2 next := by
  have : ∃ a b, beEnc 2 next = [a, b] := ⟨_, _, rfl⟩
  obtain ⟨a, b, h⟩ := this
  unfold latinRecord newRecord
  rw [h]
  rfl

theorem latinPage_link (next : Nat) (h : next < 65536) : link (latinPage next) 200 = next := by
  unfold link
  rw [numAt_sub, show 200 - 2 = 194 + 4 from rfl, latinPage_sub next 4 2 (by decide), latinRecord_link]
  exact beVal_beEnc h

theorem latinPage_linked : Linked (latinPage (65536 - 88)) true (infimumAt true) [200] := by
  have h1 : follow (latinPage (65536 - 88)) true (infimumAt true) = 200 := by
    unfold follow
    rw [if_pos rfl]
    show (99 + link _ 99) % 65536 = 200
    rw [latinPage_link0]
  have h2 : follow (latinPage (65536 - 88)) true 200 = supremumAt true := by
    unfold follow
    rw [if_pos rfl, latinPage_link _ (by decide)]
    decide
  rw [← h1]
  exact .next (by rw [h1]; decide) (by rw [h1]; exact .last h2)

theorem latinPage_free : FreeList (latinPage 0) true 200 [200] :=
  .last (by decide) (latinPage_link 0 (by decide))

theorem latinPage_row (next : Nat) : CompactRow (latinPage next) latinDefs 200 latinCells := by
  refine ⟨by decide, ?_⟩
  have hp : sub (latinPage next) (194 + 0) 21 = sub (latinRecord next) 0 21 := latinPage_sub next 0 21 (by decide)
  obtain ⟨a, b, h⟩ : ∃ a b, beEnc 2 next = [a, b] := ⟨_, _, rfl⟩
  refine compactAt_of_sub _ _ _ next 6 ?_ (by decide) ?_ ?_
  · unfold newRecord; rw [h]; rfl
  · rw [latinPage_length]; decide
  · rw [show (200 - 6 : Nat) = 194 + 0 from rfl, show 6 + (rowData (rowOf latinDefs latinCells)).length = 21 from rfl, hp]
    unfold latinRecord newRecord
    rw [h]
    rfl

/-- how the decoder reads the record: the VARCHAR(10) as ten bytes -/
def latinMisread : Row := [(⟨false, .fixed 10⟩, .val [97, 98, 1, 2, 3, 4, 5, 6, 1, 2]),
  (⟨false, .fixed 6⟩, .val [3, 4, 5, 6, 7, 0]), (⟨false, .fixed 7⟩, .val [0, 0, 0, 0, 0, 0, 0])]

theorem latinPage_misread (next : Nat) : CompactAt (latinPage next) 200 latinMisread := by
  obtain ⟨a, b, h⟩ : ∃ a b, beEnc 2 next = [a, b] := ⟨_, _, rfl⟩
  refine compactAt_of_sub _ _ _ next 5 ?_ (by decide) ?_ ?_
  · unfold newRecord; rw [h]; rfl
  · rw [latinPage_length]; decide
  · rw [show (200 - 5 : Nat) = 194 + 1 from rfl, show 5 + (rowData latinMisread).length = 28 from rfl,
      latinPage_sub next 1 28 (by decide)]
    unfold latinRecord newRecord
    rw [h]
    rfl

theorem latin_agrees : All2 (fun c e => Agrees c e.1 ∧ Fits e.1 e.2) (testCols latinDefs) latinMisread :=
  .cons ⟨⟨rfl, rfl, by decide⟩, rfl⟩ (.cons ⟨⟨rfl, rfl, by decide⟩, rfl⟩ (.cons ⟨⟨rfl, rfl, by decide⟩, rfl⟩ .nil))

theorem latin_parseOne (next : Nat) : ∃ post, parseOne testEnv (testTables latinDefs) (latinPage next) true 200 ⟨testCols latinDefs, []⟩ =
    rowResult ⟨testCols latinDefs, []⟩ (decodeRow testEnv (testCols latinDefs) latinMisread post []) := by
  have hc := latinPage_misread next
  obtain ⟨hb1, hb2⟩ := compactAt_bounds hc
  have hl : (latinPage next).length = 16384 := latinPage_length next
  have hoff := initOffsetsNew_eq (latinPage next) 200 latinMisread hc
    { columns := testCols latinDefs, nullCount := 0 } latin_agrees rfl (by decide) (by decide)
  refine ⟨(latinPage next).drop (200 + (rowData latinMisread).length), ?_⟩
  apply parseOne_of_offsets testEnv _ _ true 200 ⟨testCols latinDefs, []⟩ 0 latinMisread (List.replicate 0 0)
  · unfold recOffsets
    have hs : sliceFrom (latinPage next) 200 = some ((latinPage next).drop 200) := by unfold sliceFrom; rw [if_pos (by omega)]
    have h0 : (testCols latinDefs)[0]? = some { name := b! "c", ftype := 1, len := 10, isNull := false, tableId := 1 } := rfl
    have ht : (testTables latinDefs).get? 1 = some { columns := testCols latinDefs, nullCount := 0 } := rfl
    rw [hs]
    simp only [Option.bind_eq_bind, Option.bind_some, if_true, h0, ht]
    rw [show (testCols latinDefs).length = latinMisread.length from rfl, hoff]
    rfl
  · exact all2_imp (fun c e h => sizeOk_of_agrees h.1 h.2) latin_agrees
  · decide
  · decide
  · unfold sliceFrom; rw [if_pos (by omega), hb2]
  · rw [List.length_drop]; omega

theorem latin_visit (next : Nat) : ∃ cs s', visit testEnv (testTables latinDefs) (latinPage next) true [200] ⟨testCols latinDefs, []⟩ =
    .ok [cs] s' ∧ (cs.map (·.value))[0]? = some (.str [97, 98, 1, 2, 3, 4, 5, 6, 1, 2]) := by
  obtain ⟨post, h⟩ := latin_parseOne next
  unfold visit
  rw [GoM.bind_run, h]
  exact ⟨_, _, rfl, rfl⟩

theorem latin_decode (d : Bytes) : ∃ cs s', decodeRows testEnv (storedRows d latinDefs [200] [latinCells]) ⟨testCols latinDefs, []⟩ =
    .ok [cs] s' ∧ (cs.map (·.value))[0]? = some (.str (b! "ab")) := by
  unfold storedRows
  generalize d.drop (200 + (rowData (rowOf latinDefs latinCells)).length) = post
  exact ⟨_, _, rfl, rfl⟩

/-- C22 is false of the code: a page with one record, whose latin1 VARCHAR(10) holds `ab`, gives a row with ten bytes. -/
theorem C22_false : ¬ C22_statement := by
  intro h
  have := h testEnv (testTables latinDefs) latinDefs (latinPage (65536 - 88)) 0 [200] [latinCells] ⟨testCols latinDefs, []⟩
    (test_known _ _) (by decide) (latinPage_length _) (latinPage_compact _) latinPage_linked (.cons (latinPage_row _) .nil)
  rw [C22_visits _ _ _ _ (latinPage_length _) [200] (by rw [latinPage_compact]; exact latinPage_linked), latinPage_compact] at this
  obtain ⟨cs, s', h1, h2⟩ := latin_visit (65536 - 88)
  obtain ⟨ds, t', h3, h4⟩ := latin_decode (latinPage (65536 - 88))
  rw [h1, h3] at this
  injection this with e _
  injection e with e _
  rw [e, h4] at h2
  revert h2; decide

/-- C23 is false of the code, for the same reason. -/
theorem C23_false : ¬ C23_statement := by
  intro h
  have := h testEnv (testTables latinDefs) latinDefs (latinPage 0) 200 [200] [latinCells] ⟨testCols latinDefs, []⟩
    (test_known _ _) (by decide) (latinPage_length _) (latinPage_compact _) latinPage_free (.cons (latinPage_row _) .nil)
  rw [C23_visits _ _ _ _ (latinPage_length _) [200] (by rw [latinPage_compact]; exact latinPage_free), latinPage_compact] at this
  obtain ⟨cs, s', h1, h2⟩ := latin_visit 0
  obtain ⟨ds, t', h3, h4⟩ := latin_decode (latinPage 0)
  rw [h1, h3] at this
  injection this with e _
  injection e with e _
  rw [e, h4] at h2
  revert h2; decide

/-! ### C24: a record that links to itself -/

def emptyDefs : List ColDef := [⟨.varchar 10, false⟩, ⟨.varchar 10, false⟩, ⟨.varchar 10, false⟩]
def emptyRow : List OldCell := [⟨[], false⟩, ⟨[], false⟩, ⟨[], false⟩]

/-- a REDUNDANT page whose only record, at 200, links to itself -/
def cyclicPage : Bytes := poke (poke blank 99 (beEnc 2 200)) 191 (oldRecord 1 emptyRow 200)

theorem cyclic_len1 : (poke blank 99 (beEnc 2 200)).length = 16384 := by
  rw [poke_length _ _ _ (by rw [blank_length]; decide), blank_length]
theorem cyclicPage_length : cyclicPage.length = 16384 := by
  unfold cyclicPage
  rw [poke_length _ _ _ (by rw [cyclic_len1]; decide), cyclic_len1]

theorem cyclicPage_old : isCompact cyclicPage = false := by
  unfold isCompact cyclicPage
  rw [numAt_sub, sub_poke_before _ _ _ _ _ (by decide) (by rw [cyclic_len1]; decide),
    sub_poke_before _ _ _ _ _ (by decide) (by rw [blank_length]; decide), sub_blank _ _ (by decide)]
  decide

theorem cyclicPage_link0 : link cyclicPage 101 = 200 := by
  unfold link cyclicPage
  rw [numAt_sub, sub_poke_before _ _ _ _ _ (by decide) (by rw [cyclic_len1]; decide),
    show (101 - 2 : Nat) = 99 from rfl, sub_poke _ _ _ (by rw [blank_length]; decide) 2 rfl]
  decide

theorem cyclicPage_link : link cyclicPage 200 = 200 := by
  unfold link cyclicPage
  rw [numAt_sub, show (200 - 2 : Nat) = 191 + 7 from rfl, sub_poke_in _ _ _ (by rw [cyclic_len1]; decide) _ _ (by decide)]
  decide

theorem cyclicPage_row : RedundantAt cyclicPage 200 1 emptyRow := by
  refine redundantAt_of_sub _ _ _ _ 200 (Or.inl rfl) (by decide) (by rw [cyclicPage_length]; decide) ?_
  show sub cyclicPage 191 9 = _
  unfold cyclicPage
  rw [sub_poke _ _ _ (by rw [cyclic_len1]; decide) 9 rfl]
  decide

theorem cyclic_step (K : List Column) (hK : All2 Describes K emptyDefs) : stepC testEnv [] cyclicPage false K 200 = some 200 := by
  have h1 := C21_nulls_ignored testEnv [] emptyDefs emptyRow cyclicPage 200 1 ⟨K, []⟩ hK (by decide) (by decide)
    (by rw [cyclicPage_length]) cyclicPage_row (Or.inl ⟨rfl, by decide⟩) (by
      intro k hk m; simp [emptyDefs] at hk; subst hk; simp)
  have h2 : ∃ cs out, parseOne testEnv [] cyclicPage false 200 ⟨K, []⟩ = .ok (some cs) ⟨cs, out⟩ := by
    rw [h1]
    generalize cyclicPage.drop (200 + (oldData emptyRow).length) = post
    cases hK with
    | cons a hK =>
      cases hK with
      | cons b hK =>
        cases hK with
        | cons c hK =>
          cases hK
          obtain ⟨_, a2, a3⟩ := a
          obtain ⟨_, b2, b3⟩ := b
          obtain ⟨_, c2, c3⟩ := c
          simp only [emptyRow, List.map_cons, List.map_nil, decodeOld, decodeCell, a2, a3, b2, b3, c2, c3]
          exact ⟨_, _, rfl⟩
  obtain ⟨cs, out, h2⟩ := h2
  have h3 : nextOffset cyclicPage false 200 = some (some 200) := by
    unfold nextOffset
    rw [read_link _ _ (by decide) (by rw [cyclicPage_length]; decide) (by rw [cyclicPage_length]; decide), cyclicPage_link]
    rfl
  unfold stepC
  rw [if_pos (by decide), h2, h3]
  rfl

theorem parsePage_start (env : Env) (tables : TableMap) (d : Bytes) (free : Nat) (hd : d.length = 16384)
    (hc : isCompact d = false) (s : PState) :
    parsePage env tables d false free s = walk env tables d false walkFuel (link d 101) [] s := by
  obtain ⟨v, hv, hb⟩ := pageIsCompact_eq d (by omega)
  rw [hc] at hb
  have hr : read2 d (pageInfimum false - 2) = some (link d 101) := by
    have := read_link d 101 (by decide) (by omega) (by omega)
    rw [show sub64 101 2 = pageInfimum false - 2 by decide] at this
    exact this
  unfold parsePage
  rw [hv, GoM.lift_some_bind, hb, hr, GoM.lift_some_bind]
  rfl

/-- Parsing this page never ends. -/
theorem cyclic_hangs : ∃ s', parsePage testEnv [] cyclicPage false 0 ⟨testCols emptyDefs, []⟩ = .hang s' := by
  have hs : (steps (stepC testEnv [] cyclicPage false ((testCols emptyDefs).map skel)) walkFuel 200).isSome :=
    steps_cycle _ (m := 1) (by decide) (by unfold steps; rw [cyclic_step _ (all2_describes_skel (map_skel_idem _) (test_describes _))]; rfl) _
  obtain ⟨s', hs'⟩ := (walk_hang_iff testEnv [] cyclicPage false _ walkFuel 200 [] ⟨testCols emptyDefs, []⟩ rfl).mpr hs
  have hw := parsePage_start testEnv [] cyclicPage 0 cyclicPage_length cyclicPage_old ⟨testCols emptyDefs, []⟩
  rw [cyclicPage_link0, hs'] at hw
  exact ⟨s', hw⟩

/-- C24 is false of the code. -/
theorem C24_false : ¬ C24_statement := by
  intro h
  obtain ⟨s', hs'⟩ := cyclic_hangs
  exact h _ _ _ _ _ _ _ cyclicPage_length hs'

/-! ## C25 -/

/-- Two entries for the same column, which may hold different values left over from earlier records.  (The binary flag
belongs to the definition only for BLOB columns; for others the decoder sets it.) -/
def SameDef (c d : Column) : Prop :=
  d = { c with value := d.value, isBinary := d.isBinary } ∧ (c.ftype = DATA_BLOB → d.isBinary = c.isBinary)

instance (c d : Column) : Decidable (SameDef c d) := inferInstanceAs (Decidable (_ ∧ _))

/-- The same outcome with the same values. -/
def SameValues : R PState (Option (List Column)) → R PState (Option (List Column)) → Prop
  | .ok (some cs) _, .ok (some ds) _ => cs.map (·.value) = ds.map (·.value)
  | .ok none _, .ok none _ => True
  | .panic _, .panic _ => True
  | .hang _, .hang _ => True
  | _, _ => False

/-- The claim of C25 for one record (for files see `C25_statement`): the values of a row do not depend on what earlier records left behind. -/
def C25_record_statement : Prop :=
  ∀ (env : Env) (tables : TableMap) (d : Bytes) (c : Bool) (o : Nat) (s t : PState), d.length = 16384 →
    All2 SameDef s.cols t.cols → SameValues (parseOne env tables d c o s) (parseOne env tables d c o t)

theorem skel_of_sameDef {c d : Column} (h : SameDef c d) : skel c = skel d := by
  obtain ⟨h1, h2⟩ := h
  rw [h1]
  by_cases hb : c.ftype = DATA_BLOB
  · rw [h2 hb]; rfl
  · have : (c.ftype == DATA_BLOB) = false := by simpa using hb
    simp only [skel, skelB, this, Bool.and_false, Bool.false_and, Bool.or_false]

theorem map_skel_of_sameDef {cs ds : List Column} (h : All2 SameDef cs ds) : ds.map skel = cs.map skel := by
  induction h with
  | nil => rfl
  | cons h1 _ ih => rw [List.map_cons, List.map_cons, ih, skel_of_sameDef h1]

theorem sameRow_get {o : Bytes} {offsets : List Nat} {cs ds : List Column} {i : Nat} {f : Bool} (h : SameRow f o offsets i cs ds) :
    cs.length = ds.length ∧ ∀ j, (cs.map (·.value))[j]? = (ds.map (·.value))[j]? ∨ Outside o offsets (i + j) := by
  induction cs generalizing ds i with
  | nil =>
    cases ds with
    | nil => exact ⟨rfl, fun j => Or.inl rfl⟩
    | cons => exact absurd h (by simp [SameRow])
  | cons c cs ih =>
    cases ds with
    | nil => exact absurd h (by simp [SameRow])
    | cons d ds =>
      obtain ⟨h1, h2⟩ := h
      obtain ⟨h3, h4⟩ := ih h2
      refine ⟨by simp [h3], fun j => ?_⟩
      cases j with
      | zero =>
        rcases h1 with h1 | h1
        · left; simp [h1.1]
        · right; exact h1
      | succ j =>
        rcases h4 j with h | h
        · left; simpa using h
        · right; rw [show i + (j + 1) = i + 1 + j by omega]; exact h

/-- **C25, what can leak.** Decoding a record from two different states of the shared columns ends in the same way, and
the rows agree in every column, except columns that do not lie completely within the page and are not NULL. -/
theorem C25_only_outside (env : Env) (tables : TableMap) (d : Bytes) (c : Bool) (o : Nat) (s t : PState)
    (h : All2 SameDef s.cols t.cols) (cs : List Column) (s' : PState)
    (hs : parseOne env tables d c o s = .ok (some cs) s') :
    ∃ ds t' offsets, parseOne env tables d c o t = .ok (some ds) t' ∧ ds.length = cs.length ∧
      recOffsets tables d c o s.cols = some (some offsets) ∧
      ∀ j, (cs.map (·.value))[j]? = (ds.map (·.value))[j]? ∨ Outside (d.drop o) offsets j := by
  have := parseOne_static false (fun _ _ => True) stable_true env tables d c o (s.cols.map skel) s t
    ⟨rfl, map_skel_of_sameDef h, trivial⟩
  rw [hs] at this
  generalize ht : parseOne env tables d c o t = r at this
  cases this with
  | @ok _ b _ t' hp _ =>
    cases b with
    | none => exact absurd hp (by simp [RowRel])
    | some ds =>
      obtain ⟨_, _, offsets, h3, h4⟩ := hp
      obtain ⟨h5, h6⟩ := sameRow_get h4
      refine ⟨ds, t', offsets, rfl, h5.symm, ?_, fun j => by have := h6 j; rwa [Nat.zero_add] at this⟩
      rw [← h3, recOffsets_skel _ _ _ _ _ _ (map_skel_idem _)]

/-- **C25 (partial).** True for every record none of whose non-NULL columns extends beyond the page.  Missing: damaged
records with such columns; for these the value of an earlier record is kept (`C25_false`, `C25_stale_row`). -/
theorem C25_inside_partial (env : Env) (tables : TableMap) (d : Bytes) (c : Bool) (o : Nat) (s t : PState)
    (h : All2 SameDef s.cols t.cols)
    (hin : ∀ offsets j, recOffsets tables d c o s.cols = some (some offsets) → ¬ Outside (d.drop o) offsets j) :
    SameValues (parseOne env tables d c o s) (parseOne env tables d c o t) := by
  have hrel := parseOne_static false (fun _ _ => True) stable_true env tables d c o (s.cols.map skel) s t
    ⟨rfl, map_skel_of_sameDef h, trivial⟩
  generalize hs : parseOne env tables d c o s = r1 at hrel
  generalize ht : parseOne env tables d c o t = r2 at hrel
  cases hrel with
  | panic _ => trivial
  | hang _ => trivial
  | @ok a b s' t' hp _ =>
    cases a with
    | none =>
      cases b with
      | none => trivial
      | some _ => exact absurd hp (by simp [RowRel])
    | some cs =>
      obtain ⟨ds, t'', offsets, h1, h2, h3, h4⟩ := C25_only_outside env tables d c o s t h cs s' hs
      rw [ht] at h1
      cases h1
      show cs.map (·.value) = ds.map (·.value)
      exact List.ext_getElem? fun j => (h4 j).resolve_right (hin offsets j h3)

/-- **C25 for well-formed COMPACT records (partial).** -/
theorem C25_compact_partial (env : Env) (tables : TableMap) (defs : List ColDef) (cells : List Cell) (d : Bytes)
    (o : Nat) (s t : PState) (h : All2 SameDef s.cols t.cols) (hk : Known tables s.cols defs) (hst : Storable defs cells)
    (h3 : 3 ≤ defs.length) (hd : d.length ≤ 16384) (hc : CompactAt d o (rowOf defs cells))
    (hr : ∀ k ∈ defs, k.kind.Readable) : SameValues (parseOne env tables d true o s) (parseOne env tables d true o t) := by
  have hsk := map_skel_of_sameDef h
  rw [C20_compact_rows_partial env tables defs cells d o s hk hst h3 hd hc hr,
    C20_compact_rows_partial env tables defs cells d o t (known_skel hsk hk) hst h3 hd hc hr]
  have hl : s.cols.length = (rowOf defs cells).length := by rw [all2_length hk.desc, rowOf_length hst]
  have hrel := decodeRow_static false (fun _ _ => True) stable_true env s.cols t.cols (rowOf defs cells)
    (d.drop (o + (rowData (rowOf defs cells)).length)) hsk.symm hl s.out t.out trivial
  generalize decodeRow env s.cols _ _ s.out = r1 at hrel
  generalize decodeRow env t.cols _ _ t.out = r2 at hrel
  cases hrel with
  | panic _ => trivial
  | hang _ => trivial
  | ok hp _ => exact sameCells_values hp.2.2

/-- **C25 for well-formed REDUNDANT records (partial).** -/
theorem C25_redundant_partial (env : Env) (tables : TableMap) (defs : List ColDef) (row : List OldCell) (d : Bytes)
    (o w : Nat) (s t : PState) (h : All2 SameDef s.cols t.cols) (hk : All2 Describes s.cols defs)
    (hst : OldStorable defs row) (h3 : 3 ≤ defs.length) (hd : d.length ≤ 16384) (hat : RedundantAt d o w row)
    (hw : w = 1 ∧ (oldData row).length ≤ 127 ∨ w = 2) (hr : ∀ k ∈ defs, ∀ m, k.kind = .varcharLatin1 m → m = 0) :
    SameValues (parseOne env tables d false o s) (parseOne env tables d false o t) := by
  have hsk := map_skel_of_sameDef h
  rw [C21_nulls_ignored env tables defs row d o w s hk hst h3 hd hat hw hr,
    C21_nulls_ignored env tables defs row d o w t (all2_describes_skel hsk hk) hst h3 hd hat hw hr, decodeOld_eq, decodeOld_eq]
  have hl : s.cols.length = (viewOld row).length := by rw [all2_length hk, viewOld_length, all2_length hst]
  have hrel := decodeRow_static false (fun _ _ => True) stable_true env s.cols t.cols (viewOld row)
    (d.drop (o + (oldData row).length)) hsk.symm hl s.out t.out trivial
  generalize decodeRow env s.cols _ _ s.out = r1 at hrel
  generalize decodeRow env t.cols _ _ t.out = r2 at hrel
  cases hrel with
  | panic _ => trivial
  | hang _ => trivial
  | ok hp _ => exact sameCells_values hp.2.2

/-! ### Witness: a record at the end of the page -/

def staleDefs : List ColDef := [⟨.int 4, false⟩, ⟨.int 4, false⟩, ⟨.int 4, false⟩, ⟨.int 4, false⟩]
def staleRow : List OldCell :=
  [⟨[128, 0, 0, 4], false⟩, ⟨[128, 0, 0, 5], false⟩, ⟨[128, 0, 0, 6], false⟩, ⟨[128, 0, 0, 7], false⟩]

/-- a REDUNDANT page with a good record at 200, followed by a damaged one at 16372, whose last column would lie beyond the
page -/
def stalePage : Bytes :=
  poke (poke (poke blank 99 (beEnc 2 200)) 190 (oldRecord 1 staleRow 16372 ++ oldData staleRow)) 16362
    (oldRecord 1 staleRow 116 ++ [128, 0, 0, 1, 128, 0, 0, 2, 128, 0, 0, 3])

theorem stale_len1 : (poke blank 99 (beEnc 2 200)).length = 16384 := by
  rw [poke_length _ _ _ (by rw [blank_length]; decide), blank_length]
theorem stale_len2 : (poke (poke blank 99 (beEnc 2 200)) 190 (oldRecord 1 staleRow 16372 ++ oldData staleRow)).length = 16384 := by
  rw [poke_length _ _ _ (by rw [stale_len1]; decide), stale_len1]
theorem stalePage_length : stalePage.length = 16384 := by
  unfold stalePage
  rw [poke_length _ _ _ (by rw [stale_len2]; decide), stale_len2]

theorem stalePage_old : isCompact stalePage = false := by
  unfold isCompact stalePage
  rw [numAt_sub, sub_poke_before _ _ _ _ _ (by decide) (by rw [stale_len2]; decide),
    sub_poke_before _ _ _ _ _ (by decide) (by rw [stale_len1]; decide),
    sub_poke_before _ _ _ _ _ (by decide) (by rw [blank_length]; decide), sub_blank _ _ (by decide)]
  decide

theorem stalePage_link0 : link stalePage 101 = 200 := by
  unfold link stalePage
  rw [numAt_sub, sub_poke_before _ _ _ _ _ (by decide) (by rw [stale_len2]; decide),
    sub_poke_before _ _ _ _ _ (by decide) (by rw [stale_len1]; decide),
    show (101 - 2 : Nat) = 99 from rfl, sub_poke _ _ _ (by rw [blank_length]; decide) 2 rfl]
  decide

theorem stalePage_link1 : link stalePage 200 = 16372 := by
  unfold link stalePage
  rw [numAt_sub, sub_poke_before _ _ _ _ _ (by decide) (by rw [stale_len2]; decide),
    show (200 - 2 : Nat) = 190 + 8 from rfl, sub_poke_in _ _ _ (by rw [stale_len1]; decide) _ _ (by decide)]
  decide

theorem stalePage_link2 : link stalePage 16372 = 116 := by
  unfold link stalePage
  rw [numAt_sub, show (16372 - 2 : Nat) = 16362 + 8 from rfl, sub_poke_in _ _ _ (by rw [stale_len2]; decide) _ _ (by decide)]
  decide

theorem stalePage_linked : Linked stalePage false (infimumAt false) [200, 16372] := by
  have h0 : follow stalePage false (infimumAt false) = 200 := stalePage_link0
  have h1 : follow stalePage false 200 = 16372 := stalePage_link1
  have h2 : follow stalePage false 16372 = supremumAt false := stalePage_link2
  have l2 : Linked stalePage false 16372 [] := .last h2
  have l1 : Linked stalePage false 200 [16372] := by
    have := Linked.next (d := stalePage) (compact := false) (o := 200) (os := []) (by rw [h1]; decide) (by rw [h1]; exact l2)
    rwa [h1] at this
  have := Linked.next (d := stalePage) (compact := false) (o := infimumAt false) (os := [16372]) (by rw [h0]; decide)
    (by rw [h0]; exact l1)
  rwa [h0] at this

theorem stalePage_row : RedundantAt stalePage 200 1 staleRow := by
  refine redundantAt_of_sub _ _ _ _ 16372 (Or.inl rfl) (by decide) (by rw [stalePage_length]; decide) ?_
  show sub stalePage 190 26 = _
  unfold stalePage
  rw [sub_poke_before _ _ _ _ _ (by decide) (by rw [stale_len2]; decide)]
  exact sub_poke _ _ _ (by rw [stale_len1]; decide) 26 rfl

theorem stalePage_head : RedundantHead stalePage 16372 1 staleRow := by
  refine redundantHead_of_sub _ _ _ _ 116 (Or.inl rfl) (by decide) (by rw [stalePage_length]; decide) ?_
  show sub stalePage 16362 10 = _
  unfold stalePage
  have := sub_poke_in (poke (poke blank 99 (beEnc 2 200)) 190 (oldRecord 1 staleRow 16372 ++ oldData staleRow)) 16362
    (oldRecord 1 staleRow 116 ++ [128, 0, 0, 1, 128, 0, 0, 2, 128, 0, 0, 3]) (by rw [stale_len2]; decide) 0 10 (by decide)
  rw [Nat.add_zero] at this
  rw [this]
  decide

theorem stalePage_tail : stalePage.drop 16372 = [128, 0, 0, 1, 128, 0, 0, 2, 128, 0, 0, 3] := by
  have h := sub_poke_in (poke (poke blank 99 (beEnc 2 200)) 190 (oldRecord 1 staleRow 16372 ++ oldData staleRow)) 16362
    (oldRecord 1 staleRow 116 ++ [128, 0, 0, 1, 128, 0, 0, 2, 128, 0, 0, 3]) (by rw [stale_len2]; decide) 10 12 (by decide)
  have hl : (stalePage.drop 16372).length ≤ 12 := by rw [List.length_drop, stalePage_length]
  have : sub stalePage 16372 12 = stalePage.drop 16372 := List.take_of_length_le hl
  rw [← this]
  unfold stalePage
  rw [show (16372 : Nat) = 16362 + 10 from rfl, h]
  decide

/-- a record whose offsets and bytes are known -/
def oneOf (env : Env) (offsets : List Nat) (o : Bytes) : GoM PState (Option (List Column)) := do
  let s ← GoM.get
  if ← GoM.lift (checkFieldSize offsets s.cols) then
    let c ← parseRecords env o offsets
    let _ ← GoM.lift (recOffsSize offsets)
    return some c
  else return none

theorem parseOne_oneOf (env : Env) (tables : TableMap) (d : Bytes) (c : Bool) (o : Nat) (s : PState) (offsets : List Nat)
    (x : Bytes) (h1 : recOffsets tables d c o s.cols = some (some offsets)) (h2 : sliceFrom d o = some x) :
    parseOne env tables d c o s = oneOf env offsets x s := by
  unfold parseOne oneOf
  gom
  rw [h1]
  gom
  rw [h2]
  rfl

theorem stale_recOffsets (cols : List Column) (h : cols.length = 4) : recOffsets [] stalePage false 16372 cols =
    some (some (offsetsOf 0 4 10 (viewOld staleRow) [0])) := by
  have hoff := initOffsetsOld_head stalePage 16372 1 staleRow stalePage_head (Or.inl rfl)
    (by rw [stalePage_length]; decide) (by decide) (by decide)
  unfold recOffsets
  have hs : sliceFrom stalePage 16372 = some (stalePage.drop 16372) := by
    unfold sliceFrom; rw [if_pos (by rw [stalePage_length]; decide)]
  have hb : ∀ x : Option (Option (List Nat)), (some (stalePage.drop 16372) >>= fun _ => x) = x := fun _ => rfl
  rw [hs, h, hb, if_neg (by decide)]
  rw [show (4 : Nat) = staleRow.length from rfl, hoff]
  rfl

theorem stale_parseOne (s : PState) (h : s.cols.length = 4) : parseOne testEnv [] stalePage false 16372 s =
    oneOf testEnv (offsetsOf 0 4 10 (viewOld staleRow) [0]) [128, 0, 0, 1, 128, 0, 0, 2, 128, 0, 0, 3] s := by
  refine parseOne_oneOf testEnv [] stalePage false 16372 s _ _ (stale_recOffsets _ h) ?_
  unfold sliceFrom
  rw [if_pos (by rw [stalePage_length]; decide), stalePage_tail]

theorem stale_from (v : Val) : ∃ cs s', oneOf testEnv (offsetsOf 0 4 10 (viewOld staleRow) [0])
    [128, 0, 0, 1, 128, 0, 0, 2, 128, 0, 0, 3] ⟨(testCols staleDefs).map fun c => { c with value := v }, []⟩ =
      .ok (some cs) s' ∧ cs.map (·.value) = [.int 1, .int 2, .int 3, v] := ⟨_, _, rfl, rfl⟩

/-- C25 is false of the code: the last column of the damaged record takes whatever value is left over. -/
theorem C25_record_false : ¬ C25_record_statement := by
  intro h
  obtain ⟨cs, s', e1, v1⟩ := stale_from .nil
  obtain ⟨ds, t', e2, v2⟩ := stale_from (.int 7)
  have hA : All2 SameDef ((testCols staleDefs).map fun c => { c with value := .nil })
    ((testCols staleDefs).map fun c => { c with value := .int 7 }) := by decide
  generalize hs : (testCols staleDefs).map (fun c => { c with value := .nil }) = S at *
  generalize ht : (testCols staleDefs).map (fun c => { c with value := .int 7 }) = T at *
  have hS : S.length = 4 := by rw [← hs]; rfl
  have hT : T.length = 4 := by rw [← ht]; rfl
  have p1 := stale_parseOne ⟨S, []⟩ hS
  have p2 := stale_parseOne ⟨T, []⟩ hT
  rw [e1] at p1
  rw [e2] at p2
  have hL := stalePage_length
  generalize stalePage = d at *
  have h1 := h testEnv [] d false 16372 ⟨S, []⟩ ⟨T, []⟩ hL hA
  rw [p1, p2] at h1
  have h2 : cs.map (·.value) = ds.map (·.value) := h1
  rw [v1, v2] at h2
  revert h2
  decide

/-- The rows printed for the page: the second row ends with the value of the first, although its record has no such
column within the page. -/
theorem C25_stale_row : ∃ r1 r2 s', parsePage testEnv [] stalePage false 0 ⟨testCols staleDefs, []⟩ = .ok [r1, r2] s' ∧
    r1.map (·.value) = [.int 4, .int 5, .int 6, .int 7] ∧ r2.map (·.value) = [.int 1, .int 2, .int 3, .int 7] := by
  rw [C22_visits _ _ _ _ stalePage_length [200, 16372] (by rw [stalePage_old]; exact stalePage_linked), stalePage_old]
  have h1 := C21_nulls_ignored testEnv [] staleDefs staleRow stalePage 200 1 ⟨testCols staleDefs, []⟩ (test_describes _)
    (by decide) (by decide) (by rw [stalePage_length]) stalePage_row (Or.inl ⟨rfl, by decide⟩) (by
      intro k hk m; simp [staleDefs] at hk; subst hk; simp)
  have h2 : ∃ cs, parseOne testEnv [] stalePage false 200 ⟨testCols staleDefs, []⟩ = .ok (some cs) ⟨cs, []⟩ ∧
      cs = List.zipWith (fun c v => { c with value := .int v }) (testCols staleDefs) [4, 5, 6, 7] := by
    rw [h1]
    generalize stalePage.drop (200 + (oldData staleRow).length) = post
    exact ⟨_, rfl, rfl⟩
  obtain ⟨cs, h2, rfl⟩ := h2
  unfold visit
  rw [GoM.bind_run, h2]
  unfold visit
  simp only [GoM.bind_run]
  rw [stale_parseOne _ rfl]
  exact ⟨_, _, _, rfl, rfl, rfl⟩

/-- The binary flag also stays behind: a BINARY column that is NULL is printed as `NULL` or as `unhex(NULL)`, depending on
the records before it. -/
theorem C25_flag_leaks : ∃ (c : Column) (x : Cell) (c1 c2 c3 : Column) (o1 o2 o3 : Out),
    decodeCell testEnv c .null [] [] = .ok c1 o1 ∧ valueText testEnv.ff c1 = b! "NULL" ∧
    decodeCell testEnv c x [] [] = .ok c2 o2 ∧ decodeCell testEnv c2 .null [] [] = .ok c3 o3 ∧
    valueText testEnv.ff c3 = b! "unhex(NULL)" :=
  ⟨{ ftype := DATA_FIXBINARY, mtype := MYSQL_TYPE_STRING, len := 2 }, .val [1, 2], _, _, _, _, _, _, rfl, rfl, rfl, rfl, rfl⟩

/-! ## The hypotheses can be met -/

def twoDefs : List ColDef := ⟨.int 4, false⟩ :: trxAndRoll
def twoCells (n : UInt8) : List Cell := .val [128, 0, 0, n] :: trxAndRollCells

/-- the record of `twoCells n` as it lies in the page -/
def twoRecord (n : UInt8) (next : Nat) : Bytes :=
  newRecord (rowOf twoDefs (twoCells n)) next ++ rowData (rowOf twoDefs (twoCells n))

/-- page number 3, page type INDEX, COMPACT format, free list at 300, 44 bytes of garbage -/
def twoBase : Bytes :=
  poke (poke blank 4 (beEnc 4 3 ++ List.replicate 16 0 ++ [0x45, 0xBF])) 42 [128, 4, 1, 44, 0, 44]

/-- a COMPACT page with records at 300 and 200: infimum links to 300, 300 back to 200, and 200 has the given link -/
def twoPage (next : Nat) : Bytes :=
  poke (poke (poke twoBase 97 (beEnc 2 201)) 195 (twoRecord 2 next)) 295 (twoRecord 1 (65536 - 100))

theorem two_prefix (n : UInt8) (hdr : Bytes) : compactPrefix (rowOf twoDefs (twoCells n)) hdr = hdr := by
  have h1 : lens (rowOf twoDefs (twoCells n)) = [] := rfl
  have h2 : nullBits (rowOf twoDefs (twoCells n)) = [] := rfl
  unfold compactPrefix
  rw [h1, h2]
  rfl

theorem twoRecord_length (n : UInt8) (next : Nat) : (twoRecord n next).length = 22 := by
  obtain ⟨a, b, h⟩ : ∃ a b, beEnc 2 next = [a, b] := ⟨_, _, rfl⟩
  unfold twoRecord newRecord
  rw [h, two_prefix]
  rfl
theorem two_len0 : (poke blank 4 (beEnc 4 3 ++ List.replicate 16 0 ++ [0x45, 0xBF])).length = 16384 := by
  rw [poke_length _ _ _ (by rw [blank_length]; decide), blank_length]
theorem two_len1 : twoBase.length = 16384 := by
  unfold twoBase
  rw [poke_length _ _ _ (by rw [two_len0]; decide), two_len0]
theorem two_len2 : (poke twoBase 97 (beEnc 2 201)).length = 16384 := by
  rw [poke_length _ _ _ (by rw [two_len1]; decide), two_len1]
theorem two_len3 (next : Nat) :
    (poke (poke twoBase 97 (beEnc 2 201)) 195 (twoRecord 2 next)).length = 16384 := by
  rw [poke_length _ _ _ (by rw [two_len2, twoRecord_length]; decide), two_len2]
theorem twoPage_length (next : Nat) : (twoPage next).length = 16384 := by
  unfold twoPage
  rw [poke_length _ _ _ (by rw [two_len3, twoRecord_length]; decide), two_len3]

theorem twoPage_compact (next : Nat) : isCompact (twoPage next) = true := by
  unfold isCompact twoPage
  rw [numAt_sub, sub_poke_before _ _ _ _ _ (by decide) (by rw [two_len3]; decide),
    sub_poke_before _ _ _ _ _ (by decide) (by rw [two_len2]; decide),
    sub_poke_before _ _ _ _ _ (by decide) (by rw [two_len1]; decide)]
  unfold twoBase
  rw [show (42 : Nat) = 42 + 0 from rfl, sub_poke_in _ _ _ (by rw [two_len0]; decide) _ _ (by decide)]
  decide

theorem twoPage_follow0 (next : Nat) : follow (twoPage next) true (infimumAt true) = 300 := by
  unfold follow link twoPage
  rw [if_pos rfl, numAt_sub, sub_poke_before _ _ _ _ _ (by decide) (by rw [two_len3]; decide),
    sub_poke_before _ _ _ _ _ (by decide) (by rw [two_len2]; decide),
    show (infimumAt true - 2 : Nat) = 97 from rfl, sub_poke _ _ _ (by rw [two_len1]; decide) 2 rfl]
  decide

theorem twoRecord_link (n : UInt8) (next : Nat) : sub (twoRecord n next) 3 2 = beEnc 2 next := by
  obtain ⟨a, b, h⟩ : ∃ a b, beEnc 2 next = [a, b] := ⟨_, _, rfl⟩
  unfold twoRecord newRecord
  rw [h, two_prefix]
  rfl

theorem twoPage_link1 (next : Nat) : link (twoPage next) 300 = 65536 - 100 := by
  unfold link twoPage
  rw [numAt_sub, show (300 - 2 : Nat) = 295 + 3 from rfl,
    sub_poke_in _ _ _ (by rw [two_len3]; decide) _ _ (by rw [twoRecord_length]; decide), twoRecord_link]
  exact beVal_beEnc (by decide)

theorem twoPage_link2 (next : Nat) (h : next < 65536) : link (twoPage next) 200 = next := by
  unfold link twoPage
  rw [numAt_sub, sub_poke_before _ _ _ _ _ (by decide) (by rw [two_len3]; decide), show (200 - 2 : Nat) = 195 + 3 from rfl,
    sub_poke_in _ _ _ (by rw [two_len2]; decide) _ _ (by rw [twoRecord_length]; decide), twoRecord_link]
  exact beVal_beEnc h

theorem twoPage_follow1 (next : Nat) : follow (twoPage next) true 300 = 200 := by
  unfold follow
  rw [if_pos rfl, twoPage_link1]

theorem two_row (n : UInt8) (next : Nat) (d : Bytes) (o : Nat) (hd : d.length = 16384) (ho : 5 < o) (ho' : o + 17 ≤ 16384)
    (h : sub d (o - 5) 22 = twoRecord n next) : CompactRow d twoDefs o (twoCells n) := by
  obtain ⟨a, b, hb⟩ : ∃ a b, beEnc 2 next = [a, b] := ⟨_, _, rfl⟩
  refine ⟨?_, compactAt_of_sub _ _ _ next 5 ?_ ho ?_ h⟩
  · exact .cons rfl (.cons rfl (.cons rfl .nil))
  · unfold newRecord; rw [hb, two_prefix]; rfl
  · rw [hd]; exact ho'

theorem twoPage_rows (next : Nat) : All2 (CompactRow (twoPage next) twoDefs) [300, 200] [twoCells 1, twoCells 2] := by
  refine .cons (two_row 1 (65536 - 100) _ _ (twoPage_length _) (by decide) (by decide) ?_)
    (.cons (two_row 2 next _ _ (twoPage_length _) (by decide) (by decide) ?_) .nil)
  · exact sub_poke _ _ _ (by rw [two_len3]; decide) _ (twoRecord_length _ _).symm
  · unfold twoPage
    rw [sub_poke_before _ _ _ _ _ (by decide) (by rw [two_len3]; decide)]
    exact sub_poke _ _ _ (by rw [two_len2]; decide) _ (twoRecord_length _ _).symm

/-- C22: a page with two records, the second before the first. -/
theorem two_wellformed : Known (testTables twoDefs) (testCols twoDefs) twoDefs ∧ (twoPage (65536 - 88)).length = 16384 ∧
    isCompact (twoPage (65536 - 88)) = true ∧ Linked (twoPage (65536 - 88)) true (infimumAt true) [300, 200] ∧
    All2 (CompactRow (twoPage (65536 - 88)) twoDefs) [300, 200] [twoCells 1, twoCells 2] ∧
    (∀ k ∈ twoDefs, k.kind.Readable) := by
  refine ⟨test_known _ _, twoPage_length _, twoPage_compact _, ?_, twoPage_rows _, by decide⟩
  have h2 : follow (twoPage (65536 - 88)) true 200 = supremumAt true := by
    unfold follow
    rw [if_pos rfl, twoPage_link2 _ (by decide)]
    decide
  have l1 : Linked (twoPage (65536 - 88)) true 300 [200] := by
    have := Linked.next (d := twoPage (65536 - 88)) (compact := true) (o := 300) (os := []) (by rw [twoPage_follow1]; decide)
      (by rw [twoPage_follow1]; exact .last h2)
    rwa [twoPage_follow1] at this
  have := Linked.next (d := twoPage (65536 - 88)) (compact := true) (o := infimumAt true) (os := [200])
    (by rw [twoPage_follow0]; decide) (by rw [twoPage_follow0]; exact l1)
  rwa [twoPage_follow0] at this

/-- C23: the same records on the free list. -/
example : FreeList (twoPage 0) true 300 [300, 200] ∧
    All2 (CompactRow (twoPage 0) twoDefs) [300, 200] [twoCells 1, twoCells 2] :=
  ⟨.next (by decide) (by rw [twoPage_link1]; decide)
    (by rw [twoPage_follow1]; exact .last (by decide) (twoPage_link2 0 (by decide))), twoPage_rows _⟩

/-- C22 for REDUNDANT pages: the first record of `stalePage` satisfies the hypotheses on rows. -/
example : OldRow stalePage staleDefs 200 (1, staleRow) := ⟨by decide, stalePage_row, Or.inl ⟨rfl, by decide⟩⟩

/-- C24: a page without cycles. -/
def acyclicPage : Bytes := poke blank 97 [0, 101]

example : acyclicPage.length = 16384 ∧ follow acyclicPage true 99 = 200 ∧
    ∀ o, ¬ Relation.TransGen (Next acyclicPage true) o o := by
  have hlen : acyclicPage.length = 16384 := by
    unfold acyclicPage
    rw [poke_length _ _ _ (by rw [blank_length]; decide), blank_length]
  have hfar : ∀ o, o < 16384 → o ≠ 98 → o ≠ 99 → o ≠ 100 → link acyclicPage o = 0 := by
    intro o ho h1 h2 h3
    unfold link acyclicPage
    rw [numAt_sub]
    by_cases hlt : o < 98
    · rw [sub_poke_before _ _ _ _ _ (by omega) (by rw [blank_length]; decide), sub_blank _ _ (by omega)]; decide
    · rw [sub_poke_after _ _ _ _ _ (by simp; omega) (by rw [blank_length]; decide), sub_blank _ _ (by omega)]; decide
  have hcut : acyclicPage = List.replicate 97 0 ++ [0, 101] ++ List.replicate 16285 0 := by
    unfold acyclicPage poke blank
    rw [List.take_replicate, List.drop_replicate]
    rfl
  have h98 : link acyclicPage 98 = 0 := by
    unfold link
    rw [numAt_sub]
    unfold sub
    rw [hcut, show List.replicate 97 (0 : UInt8) = List.replicate 96 0 ++ [0] from rfl, List.append_assoc, List.append_assoc,
      List.drop_left' (by simp)]
    rfl
  have h99 : link acyclicPage 99 = 101 := by
    unfold link
    rw [numAt_sub, show 99 - 2 = 97 from rfl]
    unfold acyclicPage
    rw [sub_poke _ _ _ (by rw [blank_length]; decide) 2 rfl]
    decide
  have h100 : link acyclicPage 100 = 25856 := by
    unfold link
    rw [numAt_sub]
    unfold sub
    rw [hcut, show List.replicate 97 (0 : UInt8) ++ [0, 101] = (List.replicate 97 0 ++ [0]) ++ [101] from rfl,
      List.append_assoc, List.drop_left' (by simp), show (16285 : Nat) = 16284 + 1 from rfl, List.replicate_succ]
    rfl
  refine ⟨hlen, by unfold follow; rw [h99]; decide, ?_⟩
  have hnext : ∀ x y, Next acyclicPage true x y → (x = 99 ∨ x = 100) ∧ (y = 200 ∨ y = 25956) := by
    rintro x y ⟨h1, _, h3, rfl⟩
    by_cases e1 : x = 98
    · rw [e1] at h3; exact absurd h98 h3
    · by_cases e2 : x = 99
      · refine ⟨Or.inl e2, Or.inl ?_⟩
        rw [e2]; unfold follow; rw [h99]; decide
      · by_cases e3 : x = 100
        · refine ⟨Or.inr e3, Or.inr ?_⟩
          rw [e3]; unfold follow; rw [h100]; decide
        · exact absurd (hfar x (by omega) e1 e2 e3) h3
  have hstep : ∀ x y, Relation.TransGen (Next acyclicPage true) x y → (x = 99 ∨ x = 100) ∧ (y = 200 ∨ y = 25956) := by
    intro x y h
    induction h with
    | single h => exact hnext _ _ h
    | tail _ h ih => exact ⟨ih.1, (hnext _ _ h).2⟩
  intro o h
  have := hstep o o h
  omega

end Verif.Props
