import Verif.Props.DataWitness
/-!
# C68: data files that are cut off
-/

set_option linter.unusedSimpArgs false

namespace Verif.Props
open Verif Spec

/-! ## The missing bytes are zeros -/

theorem getD_append_zeros (c : Bytes) (n i : Nat) : (c ++ List.replicate n 0).getD i 0 = c.getD i 0 := by
  rw [List.getD_eq_getElem?_getD, List.getD_eq_getElem?_getD]
  by_cases h : i < c.length
  · rw [List.getElem?_append_left h]
  · rw [List.getElem?_append_right (by omega), List.getElem?_eq_none (l := c) (by omega), List.getElem?_replicate]
    split <;> rfl

theorem pageImage_zeros (c : Bytes) (n k : Nat) : pageImage (c ++ List.replicate n 0) k = pageImage c k := by
  unfold pageImage
  exact List.map_congr_left fun j _ => getD_append_zeros c n _

theorem filePages_zeros (c : Bytes) (n : Nat) (h : pageCount (c ++ List.replicate n 0) = pageCount c) :
    filePages (c ++ List.replicate n 0) = filePages c := by
  have e : pageImage (c ++ List.replicate n 0) = pageImage c := funext fun k => pageImage_zeros c n k
  unfold filePages firstCopies
  rw [h, e]

/-- **C68, exactly.** A data file that ends inside a page is read as if zeros followed up to the end of the page. -/
theorem C68_zeros (c : Bytes) (n : Nat) (h : pageCount (c ++ List.replicate n 0) = pageCount c) (env : Env) (db name : Bytes) (isRecovery : Bool) :
    parseDataPage env (.ok c) db name isRecovery = parseDataPage env (.ok (c ++ List.replicate n 0)) db name isRecovery := by
  unfold parseDataPage
  dsimp only
  rw [parseFile_eq, parseFile_eq]
  unfold firstCopies
  rw [h]
  simp only [pageImage_zeros]

/-- the page as it is read when only its first `m` bytes are in the file -/
def cutPage (d : Bytes) (m : Nat) : Bytes := pad (d.take m)

theorem cutPage_length {d : Bytes} (hd : d.length = 16384) (m : Nat) : (cutPage d m).length = 16384 := by
  refine pad_length _ ?_
  rw [List.length_take]
  omega

theorem filePages_cut (ds : List Bytes) (d : Bytes) (hds : ∀ p ∈ ds, p.length = 16384) (hd : d.length = 16384) (m : Nat) (h0 : 0 < m) (hm : m ≤ 16384) :
    filePages (ds.flatten ++ d.take m) = filePages (ds ++ [cutPage d m]).flatten := by
  have e : (ds ++ [cutPage d m]).flatten = ds.flatten ++ d.take m ++ List.replicate (16384 - (d.take m).length) 0 := by
    rw [List.flatten_append, List.flatten_singleton, cutPage, pad, List.append_assoc]
  have hl : ds.flatten.length = 16384 * ds.length := by
    rw [List.length_flatten]
    have : ds.map List.length = List.replicate ds.length 16384 := by
      rw [List.eq_replicate_iff]
      refine ⟨by simp, ?_⟩
      intro b hb
      obtain ⟨p, hp, rfl⟩ := List.mem_map.mp hb
      exact hds p hp
    rw [this, List.sum_replicate_nat, Nat.mul_comm]
  rw [e, filePages_zeros]
  have hps : pageSize = 16384 := rfl
  unfold pageCount
  rw [hps, List.length_append, List.length_append, List.length_replicate, List.length_take, hl]
  omega

/-! ## What is left of a page -/

theorem numAt_cut {d : Bytes} (hd : d.length = 16384) {m o w : Nat} (hm : m ≤ 16384) (h : o + w ≤ m) : numAt (cutPage d m) o w = numAt d o w := by
  rw [cutPage, Verif.numAt_pad _ _ _ (by rw [List.length_take]; omega)]
  unfold numAt
  rw [List.drop_take, List.take_take, show min w (m - o) = w by omega]

theorem drop_cut {d : Bytes} (hd : d.length = 16384) {m o : Nat} (hm : m ≤ o) (ho : o ≤ 16384) : (cutPage d m).drop o = List.replicate (16384 - o) 0 := by
  unfold cutPage pad
  have hl : (d.take m).length = m := by rw [List.length_take]; omega
  rw [List.drop_append, List.drop_of_length_le (by omega), List.nil_append, List.drop_replicate, hl]
  congr 1
  omega

theorem beVal_zeros (k : Nat) : beVal (List.replicate k (0 : UInt8)) = 0 := by
  induction k with
  | zero => rfl
  | succ k ih =>
    rw [List.replicate_succ]
    simp only [beVal, List.foldl] at ih ⊢
    exact ih

theorem numAt_behind {d : Bytes} (hd : d.length = 16384) {m o w : Nat} (hm : m ≤ o) (ho : o ≤ 16384) : numAt (cutPage d m) o w = 0 := by
  unfold numAt
  rw [drop_cut hd hm ho, List.take_replicate, beVal_zeros]

theorem field_cut {d : Bytes} (hd : d.length = 16384) {m : Nat} (hm : m ≤ 16384) (f : Nat × Nat) (h : f.1 + f.2 ≤ m) :
    field (cutPage d m) f = field d f := numAt_cut hd hm h

theorem isCompact_cut {d : Bytes} (hd : d.length = 16384) {m : Nat} (hm : m ≤ 16384) (h : 44 ≤ m) : isCompact (cutPage d m) = isCompact d := by
  unfold isCompact
  rw [numAt_cut hd hm (by omega)]

theorem link_cut {d : Bytes} (hd : d.length = 16384) {m o : Nat} (hm : m ≤ 16384) (h2 : 2 ≤ o) (h : o ≤ m) : link (cutPage d m) o = link d o :=
  numAt_cut hd hm (by omega)

theorem follow_cut {d : Bytes} (hd : d.length = 16384) {m o : Nat} (c : Bool) (hm : m ≤ 16384) (h2 : 2 ≤ o) (h : o ≤ m) :
    follow (cutPage d m) c o = follow d c o := by
  unfold follow
  rw [link_cut hd hm h2 h]

theorem compactAt_cut {d : Bytes} {m o : Nat} {row : Row} (h : CompactAt d o row) (hm : o + (rowData row).length ≤ m) :
    CompactAt (cutPage d m) o row := by
  obtain ⟨pre, hdr, post, h1, h2, hp, ho⟩ := h
  refine compactAt_pad ⟨pre, hdr, post.take (m - (o + (rowData row).length)), h1, h2, ?_, ho⟩
  rw [hp, List.take_append, List.take_of_length_le (by rw [List.length_append, ← ho]; exact hm), List.length_append, ← ho]

theorem redundantAt_cut {d : Bytes} {m o w : Nat} {row : List OldCell} (h : RedundantAt d o w row) (hm : o + (oldData row).length ≤ m) :
    RedundantAt (cutPage d m) o w row := by
  obtain ⟨pre, h3, flag, h2, post, l3, l2, hf, hp, ho⟩ := h
  refine redundantAt_pad ⟨pre, h3, flag, h2, post.take (m - (o + (oldData row).length)), l3, l2, hf, ?_, ho⟩
  rw [hp, List.take_append, List.take_of_length_le (by rw [List.length_append, ← ho]; exact hm), List.length_append, ← ho]

theorem linked_cut {d : Bytes} (hd : d.length = 16384) {m : Nat} (hm : m ≤ 16384) {c : Bool} {o : Nat} {os : List Nat} (h : Linked d c o os)
    (h2 : 2 ≤ o) (ho : o ≤ m) (hos : ∀ x ∈ os, x ≤ m) : Linked (cutPage d m) c o os := by
  induction h with
  | last h => exact .last (by rw [follow_cut hd c hm h2 ho]; exact h)
  | @next o os hu _ ih =>
    have e := follow_cut hd c hm h2 ho
    rw [← e] at hu hos ih ⊢
    refine .next hu (ih ?_ (hos _ (by simp)) fun x hx => hos x (List.mem_cons_of_mem _ hx))
    have := userAt_bounds hu
    omega

theorem freeList_cut {d : Bytes} (hd : d.length = 16384) {m : Nat} (hm : m ≤ 16384) {c : Bool} {o : Nat} {os : List Nat} (h : FreeList d c o os)
    (hos : ∀ x ∈ os, x ≤ m) : FreeList (cutPage d m) c o os := by
  induction h with
  | @last o hu h0 =>
    have := userAt_bounds hu
    exact .last hu (by rw [link_cut hd hm (by omega) (hos o (by simp))]; exact h0)
  | @next o os hu h0 _ ih =>
    have := userAt_bounds hu
    have ho := hos o (by simp)
    refine .next hu (by rw [link_cut hd hm (by omega) ho]; exact h0) ?_
    rw [follow_cut hd c hm (by omega) ho]
    exact ih fun x hx => hos x (List.mem_cons_of_mem _ hx)

theorem records_cut {d : Bytes} (hd : d.length = 16384) {m : Nat} (hm : m ≤ 16384) (h120 : 120 ≤ m) {deleted : Bool} {os : List Nat}
    (h : Records deleted d os) (hos : ∀ x ∈ os, x ≤ m) : Records deleted (cutPage d m) os := by
  unfold Records at *
  rw [isCompact_cut hd hm (by omega)]
  cases deleted with
  | true =>
    rw [if_pos rfl] at h ⊢
    rw [field_cut hd hm _ (show 44 + 2 ≤ m by omega)]
    exact freeList_cut hd hm h hos
  | false =>
    rw [if_neg (by decide)] at h ⊢
    have hb : infimumAt (isCompact d) = 99 ∨ infimumAt (isCompact d) = 101 := by cases isCompact d <;> simp [infimumAt]
    exact linked_cut hd hm h (by omega) (by omega) hos

/-- The page holds these records (as `PageHolds` says), all of them in its first `m` bytes. -/
inductive HoldsUpTo (m : Nat) (defs : List ColDef) (deleted : Bool) (d : Bytes) : List (List Cell) → Prop where
  | compact {os rows} : isCompact d = true → Records deleted d os →
      All2 (fun o cells => CompactRow d defs o cells ∧ o + (rowData (rowOf defs cells)).length ≤ m) os rows →
      HoldsUpTo m defs deleted d rows
  | redundant {os rows} : isCompact d = false → Records deleted d os →
      All2 (fun o r => (OldRow d defs o r ∧ o + (oldData r.2).length ≤ m) ∧
        All2 (fun k x => x.null = true → k.nullable = true) defs r.2) os rows →
      HoldsUpTo m defs deleted d (rows.map fun r => r.2.map OldCell.cell)

/-- **C68, records in front of the cut.** If all records of the page lie in the part that is left, the cut page holds the same records. -/
theorem C68_page_partial {m : Nat} {defs : List ColDef} {deleted : Bool} {d : Bytes} {cellss : List (List Cell)} (hd : d.length = 16384)
    (h120 : 120 ≤ m) (hm : m ≤ 16384 - 8) (h : HoldsUpTo m defs deleted d cellss) : PageHolds defs deleted (cutPage d m) cellss := by
  cases h with
  | @compact os rows hc hr hrows =>
    refine .compact (by rw [isCompact_cut hd (by omega) (by omega)]; exact hc) (records_cut hd (by omega) h120 hr ?_) ?_
    · intro x hx
      obtain ⟨_, _, h1, h2⟩ := all2_mem hrows x hx
      omega
    · refine all2_imp (fun o cells h => ⟨⟨h.1.1, compactAt_cut h.1.2 h.2⟩, ?_⟩) hrows
      have := h.2
      omega
  | @redundant os rows hc hr hrows =>
    refine .redundant (by rw [isCompact_cut hd (by omega) (by omega)]; exact hc) (records_cut hd (by omega) h120 hr ?_) ?_
    · intro x hx
      obtain ⟨_, _, ⟨_, h1⟩, h2⟩ := all2_mem hrows x hx
      omega
    · refine all2_imp (fun o r h => ⟨⟨⟨h.1.1.1, redundantAt_cut h.1.1.2.1 h.1.2, h.1.1.2.2⟩, ?_⟩, h.2⟩) hrows
      have := h.1.2
      omega

/-! ## Records behind the cut -/

/-- the contents of a column when all bytes of the record are zeros -/
def zeroCell (k : ColDef) : Cell :=
  match k.kind.storage with
  | .fixed n => .val (List.replicate n 0)
  | .var _ => .val []

def zeroCells (defs : List ColDef) : List Cell := defs.map zeroCell

theorem zeroCells_storable (defs : List ColDef) : Storable defs (zeroCells defs) := by
  induction defs with
  | nil => exact .nil
  | cons k defs ih =>
    refine .cons ?_ ih
    unfold zeroCell Fits ColDef.scol
    cases h : k.kind.storage with
    | fixed n => simp
    | var two => cases two <;> simp

/-- the size of what precedes the origin of such a record -/
def zeroHead (defs : List ColDef) : Nat := (defs.filter fun k => match k.kind.storage with | .var _ => true | .fixed _ => false).length +
  ((defs.filter (·.nullable)).length + 7) / 8 + 5

/-- and of what follows it -/
def zeroSize (defs : List ColDef) : Nat := (rowData (rowOf defs (zeroCells defs))).length

theorem rowOf_zero_cons (k : ColDef) (defs : List ColDef) :
    rowOf (k :: defs) (zeroCells (k :: defs)) = (k.scol, zeroCell k) :: rowOf defs (zeroCells defs) := rfl

theorem zero_data (defs : List ColDef) : rowData (rowOf defs (zeroCells defs)) = List.replicate (zeroSize defs) 0 := by
  rw [zeroSize, List.eq_replicate_iff]
  refine ⟨rfl, ?_⟩
  intro x hx
  induction defs with
  | nil => cases hx
  | cons k defs ih =>
    rw [rowOf_zero_cons, rowData, List.flatMap_cons, List.mem_append] at hx
    rcases hx with hx | hx
    · unfold zeroCell at hx
      cases h : k.kind.storage with
      | fixed n => rw [h] at hx; exact (List.mem_replicate.mp hx).2
      | var two => rw [h] at hx; cases hx
    · exact ih hx

theorem zero_lens (defs : List ColDef) : lens (rowOf defs (zeroCells defs)) =
    List.replicate (defs.filter fun k => match k.kind.storage with | .var _ => true | .fixed _ => false).length 0 := by
  induction defs with
  | nil => rfl
  | cons k defs ih =>
    rw [rowOf_zero_cons, lens, List.flatMap_cons]
    rw [lens] at ih
    rw [ih]
    unfold zeroCell lenBytes ColDef.scol
    cases h : k.kind.storage with
    | fixed n => rw [List.filter_cons_of_neg (by rw [h]; simp)]; rfl
    | var two =>
      rw [List.filter_cons_of_pos (by rw [h]), List.length_cons, List.replicate_succ]
      cases two <;> rfl

theorem zero_bits (defs : List ColDef) : nullBits (rowOf defs (zeroCells defs)) = List.replicate (defs.filter (·.nullable)).length false := by
  induction defs with
  | nil => rfl
  | cons k defs ih =>
    rw [rowOf_zero_cons]
    unfold nullBits at *
    have hz : zeroCell k ≠ .null := by
      unfold zeroCell
      cases k.kind.storage <;> simp
    cases hn : k.nullable with
    | false => rw [List.filter_cons_of_neg (by simp [ColDef.scol, hn]), List.filter_cons_of_neg (by simp [hn]), ih]
    | true =>
      rw [List.filter_cons_of_pos (by simp [ColDef.scol, hn]), List.filter_cons_of_pos (by simp [hn]), List.map_cons, ih, List.length_cons,
        List.replicate_succ]
      congr 1
      simpa using hz

theorem bitsVal_false (n : Nat) : bitsVal (List.replicate n false) = 0 := by
  induction n with
  | zero => rfl
  | succ n ih => rw [List.replicate_succ, bitsVal, ih]; rfl

theorem packBits_false (n : Nat) : packBits (List.replicate n false) = List.replicate ((n + 7) / 8) 0 := by
  unfold packBits
  rw [List.eq_replicate_iff]
  refine ⟨by simp, ?_⟩
  intro x hx
  obtain ⟨j, _, rfl⟩ := List.mem_map.mp hx
  rw [List.drop_replicate, List.take_replicate, bitsVal_false]
  rfl

theorem zero_prefix (defs : List ColDef) : compactPrefix (rowOf defs (zeroCells defs)) (List.replicate 5 0) = List.replicate (zeroHead defs) 0 := by
  unfold compactPrefix zeroHead
  rw [zero_lens, zero_bits, packBits_false, List.reverse_replicate, List.reverse_replicate, List.replicate_append_replicate,
    List.replicate_append_replicate]

/-- A record of which nothing is in the file is read as a row without NULLs whose columns are empty or zero bytes. -/
theorem zero_row {d : Bytes} (hd : d.length = 16384) {m o : Nat} (defs : List ColDef) (h0 : 0 < m) (hm : m + zeroHead defs ≤ o)
    (ho : o + zeroSize defs ≤ 16384) : CompactRow (cutPage d m) defs o (zeroCells defs) := by
  have hl := cutPage_length hd m
  refine ⟨zeroCells_storable defs, (cutPage d m).take (o - zeroHead defs), List.replicate 5 0, List.replicate (16384 - o - zeroSize defs) 0, ?_,
    List.length_replicate, ?_, ?_⟩
  · intro e
    have := congrArg List.length e
    rw [List.length_take, List.length_nil] at this
    omega
  · rw [zero_prefix, zero_data, List.append_assoc, List.append_assoc, List.replicate_append_replicate, List.replicate_append_replicate]
    conv => lhs; rw [← List.take_append_drop (o - zeroHead defs) (cutPage d m)]
    rw [drop_cut hd (by omega) (by omega)]
    congr 2
    omega
  · rw [List.length_append, zero_prefix, List.length_replicate, List.length_take]
    omega

/-- the record list up to the first record behind the cut -/
theorem freeList_behind {d : Bytes} (hd : d.length = 16384) {m : Nat} {c : Bool} {start o : Nat} {before after : List Nat}
    (h : FreeList d c start (before ++ o :: after)) (hb : ∀ x ∈ before, x ≤ m) (ho : m + 2 ≤ o) (hm : m ≤ 16384) :
    FreeList (cutPage d m) c start (before ++ [o]) := by
  induction before generalizing start with
  | nil =>
    have hu := h.userAt o (by simp)
    have hs : start = o := by cases h <;> rfl
    subst hs
    have := userAt_bounds hu
    exact .last hu (numAt_behind hd (by omega) (by omega))
  | cons x before ih =>
    have hx := hb x (by simp)
    rw [List.cons_append] at h ⊢
    generalize hl : before ++ o :: after = l at h
    cases h with
    | last => simp at hl
    | next hu h0 h =>
      subst hl
      have := userAt_bounds hu
      refine .next hu (by rw [link_cut hd hm (by omega) hx]; exact h0) ?_
      rw [follow_cut hd c hm (by omega) hx]
      exact ih h fun y hy => hb y (by simp [hy])

theorem linked_behind {d : Bytes} (hd : d.length = 16384) {m : Nat} {c : Bool} {start o : Nat} {before after : List Nat}
    (h : Linked d c start (before ++ o :: after)) (h2 : 2 ≤ start) (hs : start ≤ m) (hb : ∀ x ∈ before, x ≤ m) (ho : m + 2 ≤ o) (hm : m ≤ 16384) :
    FreeList (cutPage d m) c (follow (cutPage d m) c start) (before ++ [o]) := by
  rw [follow_cut hd c hm h2 hs]
  induction before generalizing start with
  | nil =>
    rw [List.nil_append] at h
    cases h with
    | next hu _ =>
      have := userAt_bounds hu
      exact .last hu (numAt_behind hd (by omega) (by omega))
  | cons x before ih =>
    have hx := hb x (by simp)
    rw [List.cons_append] at h ⊢
    cases h with
    | next hu h =>
      have hu' := userAt_bounds hu
      have h1 := ih h (by omega) hx (fun y hy => hb y (by simp [hy]))
      refine .next hu ?_ ?_
      · rw [link_cut hd hm (by omega) hx]
        intro h0
        have : follow d c (follow d c start) = (follow d c start) ∨ follow d c (follow d c start) = 0 := by
          generalize follow d c start = f at h0 hu'
          unfold follow
          rw [h0]
          cases c
          · right; rfl
          · left
            simp only [if_true, Nat.add_zero]
            omega
        have hmem : follow d c (follow d c start) ∈ before ++ o :: after := by
          generalize before ++ o :: after = l at h
          cases h with
          | last h =>
            exfalso
            rcases this with e | e
            · rw [e] at h; omega
            · rw [e] at h; cases c <;> simp [supremumAt] at h
          | next => simp
        rcases this with e | e
        · have hn := h.nodup
          have h3 : Linked d c (follow d c start) (follow d c start :: (before ++ o :: after)) := by
            conv => rhs; lhs; rw [← e]
            exact .next (by rw [e]; exact hu) (by rw [e]; exact h)
          have := h3.det h
          have := congrArg List.length this
          simp at this
        · have := h.userAt _ hmem
          rw [e] at this
          have := userAt_bounds this
          omega
      · rw [follow_cut hd c hm (by omega) hx]
        exact h1

/-- the record list of a page that begins at the infimum record and ends with a zero link -/
theorem parsePage_zero_link (env : Env) (tables : TableMap) (d : Bytes) (free : Nat) (hd : d.length = 16384) (os : List Nat)
    (hl : FreeList d true (follow d true 99) os) (hc : isCompact d = true) (s : PState) :
    parsePage env tables d false free s = visit env tables d true os s := by
  have hf : 99 + link d 99 < 65536 := by
    have hu := userAt_bounds (hl.userAt (follow d true 99) (by cases hl <;> simp))
    have h1 : follow d true 99 = (99 + link d 99) % 65536 := by unfold follow; rw [if_pos rfl]
    have h2 := link_lt d 99
    omega
  obtain ⟨v, hv, hc'⟩ := pageIsCompact_eq d (by omega)
  unfold parsePage
  rw [hv, GoM.lift_some_bind, hc', hc]
  have hr : read2 d (pageInfimum true - 2) = some (link d 99) := by
    rw [infimum_eq, read2_eq, Verif.read_at d _ (by simp [infimumAt, hd])]
    rfl
  rw [hr, GoM.lift_some_bind]
  simp only [if_true, Bool.false_eq_true, if_false]
  have e : pageInfimum true + link d 99 = follow d true 99 := by
    unfold follow
    rw [if_pos rfl, Nat.mod_eq_of_lt hf]
    rfl
  rw [e]
  have hlen := hl.length_le
  rw [walk_free env tables d true hd os _ walkFuel [] s hl (by unfold walkFuel; omega), bind_pure_nil]

/-- **C68, a record behind the cut, when printing.** The rows of the records in front of the cut are followed by a row that nobody stored. -/
theorem C68_printed_page (env : Env) (tables : TableMap) (defs : List ColDef) (d : Bytes) (free m o : Nat) (before after : List Nat)
    (rows : List (List Cell)) (s : PState) (hk : Known tables s.cols defs) (h3 : 3 ≤ defs.length) (hr : ∀ k ∈ defs, k.kind.Readable)
    (hd : d.length = 16384) (hc : isCompact d = true) (h120 : 120 ≤ m) (hl : Linked d true 99 (before ++ o :: after))
    (hb : All2 (fun o cells => CompactRow d defs o cells ∧ o + (rowData (rowOf defs cells)).length ≤ m) before rows)
    (ho : m + zeroHead defs ≤ o) (hz : o + zeroSize defs ≤ 16384) :
    parsePage env tables (cutPage d m) false free s =
      decodeRows env (storedRows (cutPage d m) defs (before ++ [o]) (rows ++ [zeroCells defs])) s := by
  have hm : m ≤ 16384 := by omega
  have h5 : 5 ≤ zeroHead defs := by unfold zeroHead; omega
  have hb' : ∀ x ∈ before, x ≤ m := by
    intro x hx
    obtain ⟨_, _, _, h⟩ := all2_mem hb x hx
    omega
  have hfl := linked_behind hd hl (by omega) (by omega) hb' (by omega) hm
  have hlc := cutPage_length hd m
  rw [parsePage_zero_link env tables (cutPage d m) free hlc _ hfl (by rw [isCompact_cut hd hm (by omega)]; exact hc) s]
  refine visit_compact env tables defs (cutPage d m) _ _ h3 (by omega) hr ?_ s hk
  have hlast : All2 (CompactRow (cutPage d m) defs) [o] [zeroCells defs] := .cons (zero_row hd defs (by omega) ho hz) .nil
  clear hl hfl hb'
  induction hb with
  | nil => exact hlast
  | cons h _ ih => exact .cons ⟨h.1.1, compactAt_cut h.1.2 h.2⟩ ih

/-- **C68, a record behind the cut, when recovering.** The same of the free list: the cut page holds the records in front of the cut, and
one that nobody deleted. -/
theorem C68_recovered_page (defs : List ColDef) (d : Bytes) (m o : Nat) (before after : List Nat) (rows : List (List Cell))
    (hd : d.length = 16384) (hc : isCompact d = true) (h120 : 120 ≤ m) (hl : FreeList d true (field d PAGE_FREE) (before ++ o :: after))
    (hb : All2 (fun o cells => CompactRow d defs o cells ∧ o + (rowData (rowOf defs cells)).length ≤ m) before rows)
    (ho : m + zeroHead defs ≤ o) (hz : o + zeroSize defs ≤ 16384 - 8) :
    PageHolds defs true (cutPage d m) (rows ++ [zeroCells defs]) := by
  have hm : m ≤ 16384 := by omega
  have h5 : 5 ≤ zeroHead defs := by unfold zeroHead; omega
  have hb' : ∀ x ∈ before, x ≤ m := by
    intro x hx
    obtain ⟨_, _, _, h⟩ := all2_mem hb x hx
    omega
  have hcc : isCompact (cutPage d m) = true := by rw [isCompact_cut hd hm (by omega)]; exact hc
  refine .compact (os := before ++ [o]) hcc ?_ ?_
  · unfold Records
    rw [if_pos rfl, hcc, field_cut hd hm _ (show 44 + 2 ≤ m by omega)]
    exact freeList_behind hd hl hb' (by omega) hm
  · have hlast : All2 (fun o cells => CompactRow (cutPage d m) defs o cells ∧ o + (rowData (rowOf defs cells)).length ≤ 16384 - 8)
        [o] [zeroCells defs] := .cons ⟨zero_row hd defs (by omega) ho (by omega), hz⟩ .nil
    clear hl hb'
    induction hb with
    | nil => exact hlast
    | cons h _ ih => exact .cons ⟨⟨h.1.1, compactAt_cut h.1.2 h.2⟩, by have := h.2; omega⟩ ih

/-! ## The command -/

/-- what C57 asks of a table and its file, so that the command prints its rows -/
structure PrintableFile (env : Env) (a : FromData) (sys ibd : Bytes) (trs : List TableRow) (crs : List ColumnRow)
    (irs : List IndexRow) (frs : List FieldRow) (t : TableRow) (r : IndexRow) (l : List Column) (defs : List ColDef) (deleted : Bool)
    (rows : List (List (Option TVal))) : Prop where
  sysFile : a.sysFile = .ok sys
  dict : Dictionary sys trs crs irs frs
  table : t ∈ trs
  name : t.name = a.db ++ b! "/" ++ a.table
  layout : Layout irs frs t.id (columnsOf crs t.id) l
  op : deleted = true ↔ a.opType = b! "RecoveryData"
  keys : ∀ t ∈ trs, UsualKeys irs frs crs t.id
  handled : Handled irs frs crs t.id
  mark : Marked ibd r.id deleted
  compact : ∀ d ∈ leafPages ibd r.id deleted, isCompact d = true → ∀ k ∈ defs, k.kind.Readable
  redundant : ∀ d ∈ leafPages ibd r.id deleted, isCompact d = false →
      (∀ k ∈ defs, ∀ m, k.kind = .varcharLatin1 m → m = 0) ∧ ∀ row ∈ rows, none ∉ row
  values : ∀ row ∈ rows, All2 (Restored env.ff) (columnsOf crs t.id) row
  db : 96 ∉ a.db
  tab : 96 ∉ a.table

/-- **C68**, as stated: of a data file whose rows are printed (C57), cut at any place, the first rows are printed and nothing else. -/
def C68_statement : Prop :=
  ∀ (env : Env) (a : FromData) (sys ibd : Bytes) (trs : List TableRow) (crs : List ColumnRow)
    (irs : List IndexRow) (frs : List FieldRow) (t : TableRow) (r : IndexRow) (l : List Column) (defs : List ColDef) (deleted : Bool)
    (rows : List (List (Option TVal))) (k : Nat), PrintableFile env a sys ibd trs crs irs frs t r l defs deleted rows →
    TableFile env ibd r.id (columnsOf crs t.id) l defs deleted rows → a.tableFile = .ok (ibd.take k) →
    ∀ out, ∃ n lines, fromDataFile env a out = .ok () (out ++ lines) ∧ All2 (Printed env.ff a.db a.table) lines (rows.take n)

/-- the test for the leaf pages -/
def isLeaf (cid : Nat) (deleted : Bool) (d : Bytes) : Bool :=
  field d FIL_PAGE_TYPE == FIL_PAGE_INDEX && field d PAGE_LEVEL == 0 && field d PAGE_INDEX_ID == cid && (!deleted || field d PAGE_FREE != 0)

theorem leafPages_flatten (ds : List Bytes) (h : ∀ p ∈ ds, p.length = 16384) (hn : (ds.map pageNumber).Nodup) (cid : Nat) (deleted : Bool) :
    leafPages ds.flatten cid deleted = ds.filter (isLeaf cid deleted) := by
  unfold leafPages filePages
  rw [images_flatten ds h hn]
  rfl

theorem isLeaf_cut {d : Bytes} (hd : d.length = 16384) {m : Nat} (h120 : 120 ≤ m) (hm : m ≤ 16384) (cid : Nat) (deleted : Bool) :
    isLeaf cid deleted (cutPage d m) = isLeaf cid deleted d := by
  unfold isLeaf
  rw [field_cut hd hm _ (show 24 + 2 ≤ m by omega), field_cut hd hm _ (show 64 + 2 ≤ m by omega), field_cut hd hm _ (show 66 + 8 ≤ m by omega),
    field_cut hd hm _ (show 44 + 2 ≤ m by omega)]

theorem cut_pages {ds : List Bytes} {d : Bytes} (hds : ∀ p ∈ ds, p.length = 16384) (hd : d.length = 16384)
    (hn : ((ds ++ [d]).map pageNumber).Nodup) {m : Nat} (h120 : 120 ≤ m) (hm : m ≤ 16384) :
    filePages (ds.flatten ++ d.take m) = ds ++ [cutPage d m] := by
  rw [filePages_cut ds d hds hd m (by omega) hm]
  refine images_flatten _ ?_ ?_
  · intro p hp
    rcases List.mem_append.mp hp with hp | hp
    · exact hds p hp
    · cases List.mem_singleton.mp hp
      exact cutPage_length hd m
  · rw [List.map_append, List.map_singleton, pageNumber, numAt_cut hd hm (by omega)]
    rw [List.map_append] at hn
    exact hn

/-- **C68 (partial).** A data file cut in a page whose records all lie in front of the cut, and before which the pages are whole: exactly the
rows of the pages before and of that page are printed.  Missing: cuts that lose records of a page (`C68_printed_page`, `C68_recovered_page`). -/
theorem C68_rows_partial (env : Env) (a : FromData) (sys : Bytes) (ds : List Bytes) (d : Bytes) (m : Nat) (trs : List TableRow) (crs : List ColumnRow)
    (irs : List IndexRow) (frs : List FieldRow) (t : TableRow) (r : IndexRow) (l : List Column) (defs : List ColDef) (deleted : Bool)
    (rows last : List (List (Option TVal))) (hp : PrintableFile env a sys (ds ++ [d]).flatten trs crs irs frs t r l defs deleted (rows ++ last))
    (hds : ∀ p ∈ ds, p.length = 16384) (hd : d.length = 16384) (hn : ((ds ++ [d]).map pageNumber).Nodup) (h120 : 120 ≤ m) (hm : m ≤ 16384 - 8)
    (hfile : TableFile env ds.flatten r.id (columnsOf crs t.id) l defs deleted rows)
    (hlast : d ∈ leafPages (ds ++ [d]).flatten r.id deleted → ∃ cellss, HoldsUpTo m defs deleted d cellss ∧
      All2 (fun cells row => All2 (Stores l cells) (columnsOf crs t.id) row) cellss last)
    (hnone : d ∉ leafPages (ds ++ [d]).flatten r.id deleted → last = [])
    (htyped : ∀ row ∈ last, All2 (fun c x => ∀ v : TVal, x = some v → v.Of c ∧ v.Fits env.zone) (columnsOf crs t.id) row)
    (hcut : a.tableFile = .ok (ds.flatten ++ d.take m)) (out : Out) :
    ∃ lines, fromDataFile env a out = .ok () (out ++ lines) ∧ All2 (Printed env.ff a.db a.table) lines (rows ++ last) := by
  have hall : ∀ p ∈ ds ++ [d], p.length = 16384 := by
    intro p hp
    rcases List.mem_append.mp hp with hp | hp
    · exact hds p hp
    · cases List.mem_singleton.mp hp; exact hd
  have hnds : (ds.map pageNumber).Nodup := by
    rw [List.map_append] at hn
    exact (List.nodup_append.mp hn).1
  have hwhole : leafPages (ds ++ [d]).flatten r.id deleted = ds.filter (isLeaf r.id deleted) ++ [d].filter (isLeaf r.id deleted) := by
    rw [leafPages_flatten _ hall hn, List.filter_append]
  have hpages := cut_pages hds hd hn h120 (show m ≤ 16384 by omega)
  have hcutl : leafPages (ds.flatten ++ d.take m) r.id deleted = ds.filter (isLeaf r.id deleted) ++ [cutPage d m].filter (isLeaf r.id deleted) := by
    show (filePages (ds.flatten ++ d.take m)).filter (isLeaf r.id deleted) = _
    rw [hpages, List.filter_append]
  have hleaf := isLeaf_cut hd h120 (show m ≤ 16384 by omega) r.id deleted
  have hmem : d ∈ leafPages (ds ++ [d]).flatten r.id deleted ↔ isLeaf r.id deleted d = true := by
    rw [leafPages_flatten _ hall hn, List.mem_filter]
    simp
  -- every leaf page of the cut file is one of the whole file, or the cut one
  have hsub : ∀ p ∈ leafPages (ds.flatten ++ d.take m) r.id deleted, p ∈ leafPages (ds ++ [d]).flatten r.id deleted ∨
      (p = cutPage d m ∧ d ∈ leafPages (ds ++ [d]).flatten r.id deleted) := by
    intro p hp
    rw [hcutl] at hp
    rcases List.mem_append.mp hp with hp | hp
    · left
      rw [hwhole]
      exact List.mem_append_left _ hp
    · right
      obtain ⟨h1, h2⟩ := List.mem_filter.mp hp
      cases List.mem_singleton.mp h1
      exact ⟨rfl, hmem.mpr (by rw [← hleaf]; exact h2)⟩
  have hfields : ∀ f : Nat × Nat, f.1 + f.2 ≤ 120 → field (cutPage d m) f = field d f := fun f hf => field_cut hd (by omega) f (by omega)
  have hcompact := isCompact_cut hd (show m ≤ 16384 by omega) (show 44 ≤ m by omega)
  refine C57_command_partial env a sys _ trs crs irs frs t r l defs deleted (rows ++ last) hp.sysFile hcut hp.dict hp.table hp.name hp.layout
    ⟨hfile.names, hfile.bits, hfile.desc, ?_, ?_⟩ hp.op hp.keys hp.handled ⟨?_, ?_⟩ ?_ ?_ hp.values hp.db hp.tab out
  · obtain ⟨rss, e, h⟩ := hfile.pages
    rw [leafPages_flatten _ hds hnds] at h
    rw [hcutl]
    by_cases hl : isLeaf r.id deleted d = true
    · obtain ⟨cellss, h1, h2⟩ := hlast (hmem.mpr hl)
      refine ⟨rss ++ [last], by simp [e], ?_⟩
      rw [List.filter_cons_of_pos (by rw [hleaf]; exact hl), List.filter_nil]
      exact all2_append h (.cons ⟨cellss, C68_page_partial hd h120 hm h1, h2⟩ .nil)
    · rw [hnone fun h => hl (hmem.mp h), List.append_nil]
      refine ⟨rss, e, ?_⟩
      rw [List.filter_cons_of_neg (by rw [hleaf]; exact hl), List.filter_nil, List.append_nil]
      exact h
  · intro row hrow
    rcases List.mem_append.mp hrow with hrow | hrow
    · exact hfile.typed row hrow
    · exact htyped row hrow
  · intro p hpm h1 h2
    rw [hpages] at hpm
    have hw : filePages (ds ++ [d]).flatten = ds ++ [d] := images_flatten _ hall hn
    rcases List.mem_append.mp hpm with hpm | hpm
    · exact hp.mark.trx p (by rw [hw]; exact List.mem_append_left _ hpm) h1 h2
    · cases List.mem_singleton.mp hpm
      rw [hfields _ (by decide)] at h1 h2 ⊢
      rw [hfields _ (by decide)]
      exact hp.mark.trx d (by rw [hw]; simp) h1 h2
  · intro hdel p hpm
    rcases hsub p hpm with h | ⟨rfl, h⟩
    · exact hp.mark.garbage hdel p h
    · rw [hfields _ (by decide)]
      exact hp.mark.garbage hdel d h
  · intro p hpm hc
    rcases hsub p hpm with h | ⟨rfl, h⟩
    · exact hp.compact p h hc
    · exact hp.compact d h (by rw [← hcompact]; exact hc)
  · intro p hpm hc
    rcases hsub p hpm with h | ⟨rfl, h⟩
    · exact hp.redundant p h hc
    · exact hp.redundant d h (by rw [← hcompact]; exact hc)

/-! ## C68 is false -/

/-- the data page of the shop, filled up -/
def shopPage : Bytes := pad (shopDataPage (b! "ann"))

theorem shopPage_length : shopPage.length = 16384 := pad_length _ (by have := shopData_length (.inl rfl); omega)

theorem shopPage_file : shopData (b! "ann") = [shopPage].flatten := rfl

/-- the row that is read behind the cut -/
def zeroShopRow : List (Option TVal) := [some (.int 4 (-2147483648)), some (.varchar [])]

set_option maxRecDepth 4000 in
theorem zeroShop_stores : All2 (Stores (shopLayout 20) (zeroCells shopDefs)) (columnsOf shopColumns 20) zeroShopRow :=
  .cons ⟨0, by decide, by decide⟩ (.cons ⟨3, by decide, by decide⟩ .nil)

theorem zeroShop_typed (env : Env) : All2 (fun c x => ∀ v : TVal, x = some v → v.Of c ∧ v.Fits env.zone) (columnsOf shopColumns 20) zeroShopRow := by
  have e : columnsOf shopColumns 20 = [shopId, shopName] := by decide
  rw [e]
  refine .cons ?_ (.cons ?_ .nil)
  · rintro v ⟨⟩
    exact ⟨⟨rfl, by decide, by decide, rfl, rfl⟩, by decide, by decide, by decide⟩
  · rintro v ⟨⟩
    exact ⟨rfl, trivial⟩

theorem shopPage_field (f : Nat × Nat) (h : f.1 + f.2 ≤ 170) : field (cutPage shopPage 170) f = field (shopDataPage (b! "ann")) f := by
  rw [field_cut shopPage_length (by decide) f h, shopPage, shopData_field (.inl rfl) f (by omega)]

theorem cutShop_compact : isCompact (cutPage shopPage 170) = true := by
  rw [isCompact_cut shopPage_length (by decide) (by decide)]
  exact shopData_compact (.inl rfl)

theorem cutShop_holds : PageHolds shopDefs true (cutPage shopPage 170) [zeroCells shopDefs] := by
  have h := shopData_records (.inl rfl : ShopRow (b! "ann")) true
  unfold Records at h
  rw [if_pos rfl, if_pos rfl, shopData_compact (.inl rfl)] at h
  exact C68_recovered_page shopDefs shopPage 170 177 [] [] [] shopPage_length (shopData_compact (.inl rfl)) (by decide) h .nil (by decide) (by decide)

theorem cutShop_pages : filePages (shopPage.take 170) = [cutPage shopPage 170] := by
  have := cut_pages (ds := []) (d := shopPage) (m := 170) (by simp) shopPage_length (by simp) (by decide) (by decide)
  rwa [List.flatten_nil, List.nil_append, List.nil_append] at this

theorem cutShop_leaf : leafPages (shopPage.take 170) 30 true = [cutPage shopPage 170] := by
  obtain ⟨h1, h2, h3, _, h5, _⟩ := shopData_fields (.inl rfl : ShopRow (b! "ann"))
  unfold leafPages
  rw [cutShop_pages, List.filter_cons_of_pos]
  · rfl
  · rw [shopPage_field _ (by decide), shopPage_field _ (by decide), shopPage_field _ (by decide), shopPage_field _ (by decide), h1, h2, h3, h5]
    simp

theorem cutShop_file (env : Env) : TableFile env (shopPage.take 170) 30 (columnsOf shopColumns 20) (shopLayout 20) shopDefs true [zeroShopRow] where
  names := by decide
  bits := by decide
  desc := by decide
  pages := by
    refine ⟨[[zeroShopRow]], rfl, ?_⟩
    rw [cutShop_leaf]
    exact .cons ⟨_, cutShop_holds, .cons zeroShop_stores .nil⟩ .nil
  typed := by
    intro row hrow
    cases List.mem_singleton.mp hrow
    exact zeroShop_typed env

/-- the command for the deleted rows of the shop, of whose data file `m` bytes are left -/
def cutShopArgs (m : Nat) : FromData := ⟨.ok (shopFile idKey), .ok (shopPage.take m), b! "shop", b! "t", b! "RecoveryData"⟩

theorem cutShop_op (m : Nat) : true = true ↔ (cutShopArgs m).opType = b! "RecoveryData" := by simp [cutShopArgs]
theorem cutShop_sys (m : Nat) : (cutShopArgs m).sysFile = .ok (shopFile idKey) := by rw [cutShopArgs]
theorem cutShop_table (m : Nat) : (cutShopArgs m).tableFile = .ok (shopPage.take m) := by rw [cutShopArgs]

/-- **C68, what is printed:** the file is cut in front of the deleted row (3, 'bob'), the only one; recovered is a row with the id -2147483648
and an empty name. -/
theorem C68_wrong_row (env : Env) (out : Out) : ∃ lines, fromDataFile env (cutShopArgs 170) out = .ok () (out ++ lines) ∧
    All2 (Printed env.ff (b! "shop") (b! "t")) lines [zeroShopRow] := by
  refine C57_command_partial env (cutShopArgs 170) _ _ _ _ _ _ ⟨b! "shop/t", 20, 5⟩ ⟨20, 30, b! "PRIMARY", 1, 3⟩ _ _ true
    [zeroShopRow] (cutShop_sys _) (cutShop_table _) (shop_dictionary (.inl rfl)) (by decide) rfl (shop_layout _ (by decide))
    (cutShop_file env) (cutShop_op _) shop_arranged
    (shop_handled _ (by decide)) ⟨?_, ?_⟩ (fun _ _ _ => by decide) ?_ ?_
    (show 96 ∉ b! "shop" by decide) (show 96 ∉ b! "t" by decide) out
  · intro d hd _ _
    rw [cutShop_pages] at hd
    cases List.mem_singleton.mp hd
    rw [shopPage_field _ (by decide), shopPage_field _ (by decide), (shopData_fields (.inl rfl)).2.2.1, (shopData_fields (.inl rfl)).2.2.2.1]
    simp
  · intro _ d hd
    rw [cutShop_leaf] at hd
    cases List.mem_singleton.mp hd
    rw [shopPage_field _ (by decide), (shopData_fields (.inl rfl)).2.2.2.2.2.1]
    decide
  · intro d hd hc
    rw [cutShop_leaf] at hd
    cases List.mem_singleton.mp hd
    rw [cutShop_compact] at hc
    cases hc
  · intro row hrow
    rw [show columnsOf shopColumns 20 = [shopId, shopName] by decide]
    cases List.mem_singleton.mp hrow
    exact .cons ⟨trivial, trivial⟩ (.cons ⟨trivial, ⟨by decide, by decide⟩⟩ .nil)

theorem shop_printable (env : Env) (m : Nat) : PrintableFile env (cutShopArgs m) (shopFile idKey) (shopData (b! "ann")) shopTables shopColumns (shopIndexes idKey)
    (shopFields idKey) ⟨b! "shop/t", 20, 5⟩ ⟨20, 30, b! "PRIMARY", 1, 3⟩ (shopLayout 20) shopDefs true (shopRows (b! "ann") true) where
  sysFile := cutShop_sys m
  dict := shop_dictionary (.inl rfl)
  table := by decide
  name := rfl
  layout := shop_layout _ (by decide)
  op := cutShop_op m
  keys := shop_arranged
  handled := shop_handled _ (by decide)
  mark := shopData_marked (.inl rfl) true
  compact := (shopData_format (.inl rfl) true).1
  redundant := (shopData_format (.inl rfl) true).2
  values := by
    intro row hrow
    rw [show columnsOf shopColumns 20 = [shopId, shopName] by decide]
    cases List.mem_singleton.mp hrow
    exact .cons ⟨trivial, trivial⟩ (.cons ⟨trivial, ⟨by decide, by decide⟩⟩ .nil)
  db := show 96 ∉ b! "shop" by decide
  tab := show 96 ∉ b! "t" by decide

theorem shopData_eq : (shopData (b! "ann")).take 170 = shopPage.take 170 := by
  rw [shopPage_file, List.flatten_singleton]

/-- **C68 is false.** -/
theorem C68_false : ¬ C68_statement := by
  intro h
  obtain ⟨n, lines, h1, h2⟩ := h testEnv (cutShopArgs 170) _ _ _ _ _ _ _ _ _ _ true _ 170 (shop_printable testEnv 170) (shopData_file testEnv (.inl rfl) true)
    (by rw [shopData_eq]; exact cutShop_table 170) []
  obtain ⟨lines', h3, h4⟩ := C68_wrong_row testEnv []
  rw [h3] at h1
  injection h1 with _ h1
  rw [List.nil_append, List.nil_append] at h1
  subst h1
  have hl := all2_length h4
  have hl' := all2_length h2
  match lines', hl with
  | [line], _ =>
    cases n with
    | zero => simp at hl'
    | succ n =>
      have e : (shopRows (b! "ann") true).take (n + 1) = [[some (.int 4 3), some (.varchar (b! "bob"))]] := by
        simp [shopRows]
      rw [e] at h2
      cases h2 with
      | cons p2 _ =>
        cases h4 with
        | cons p4 _ =>
          obtain ⟨vs, v1, v2⟩ := p2
          obtain ⟨ws, w1, w2⟩ := p4
          have : some (⟨b! "shop", b! "t", vs⟩ : Replace) = some ⟨b! "shop", b! "t", ws⟩ := v1.symm.trans w1
          injection this with this
          injection this with _ _ this
          subst this
          have v2 : All2 (Denotes testEnv.ff) vs [.int 3, .text (b! "bob")] := v2
          have w2 : All2 (Denotes testEnv.ff) vs [.int (-2147483648), .text []] := w2
          rcases v2 with _ | ⟨d1, _⟩
          rcases w2 with _ | ⟨d2, _⟩
          rename_i v _ _ _
          cases v with
          | bytes x =>
            have d1 : intVal x = some 3 := d1.1
            have d2 : intVal x = some (-2147483648) := d2.1
            rw [d1] at d2
            exact absurd d2 (by decide)
          | null => exact d1
          | bits _ => exact d1

/-! ## Cases -/

set_option maxRecDepth 8000 in
/-- the deleted row of the shop ends at byte 197 -/
theorem shop_upto : HoldsUpTo 197 shopDefs true shopPage [shopCells 3 (some (b! "bob"))] := by
  refine .compact (shopData_compact (.inl rfl)) (shopData_records (.inl rfl) true) (.cons ⟨?_, by decide⟩ .nil)
  have hl := (shopData_length (.inl rfl : ShopRow (b! "ann"))).2
  exact (shopData_row (name := b! "ann") (n := 7) (next := 0) (by decide) (by decide) (by decide) (by decide) hl (by decide)).1

/-- cut there, the file still gives the row: `C68_rows_partial` -/
example (env : Env) (out : Out) : ∃ lines, fromDataFile env (cutShopArgs 197) out = .ok () (out ++ lines) ∧
    All2 (Printed env.ff (b! "shop") (b! "t")) lines [[some (.int 4 3), some (.varchar (b! "bob"))]] := by
  have hleaf := shopData_leaf (.inl rfl : ShopRow (b! "ann")) true
  have hf := shopData_file env (.inl rfl : ShopRow (b! "ann")) true
  refine C68_rows_partial env (cutShopArgs 197) _ [] shopPage 197 _ _ _ _ _ _ _ _ true [] (shopRows (b! "ann") true) (shop_printable env 197)
    (by simp) shopPage_length (by simp) (by decide) (by decide) ⟨hf.names, hf.bits, hf.desc, ⟨[], rfl, ?_⟩, by simp⟩ ?_ ?_ hf.typed ?_ out
  · rw [leafPages_flatten [] (by simp) (by simp)]
    exact .nil
  · intro _
    exact ⟨_, shop_upto, .cons (shopData_stores 3 _) .nil⟩
  · intro h
    exact absurd (show shopPage ∈ leafPages (shopData (b! "ann")) 30 true by rw [hleaf]; exact List.mem_singleton.mpr rfl) h
  · rw [List.flatten_nil, List.nil_append]
    exact cutShop_table 197

/-- the same page, printed instead of recovered, when all of its records are cut off -/
example (env : Env) (tables : TableMap) (s : PState) (hk : Known tables s.cols shopDefs) :
    parsePage env tables (cutPage shopPage 120) false 0 s =
      decodeRows env (storedRows (cutPage shopPage 120) shopDefs [127] [zeroCells shopDefs]) s := by
  have h := shopData_records (.inl rfl : ShopRow (b! "ann")) false
  unfold Records at h
  rw [shopData_compact (.inl rfl)] at h
  exact C68_printed_page env tables shopDefs shopPage 0 120 127 [] [153] [] s hk (by decide) (by decide) shopPage_length
    (shopData_compact (.inl rfl)) (by decide) h .nil (by decide) (by decide)

end Verif.Props
