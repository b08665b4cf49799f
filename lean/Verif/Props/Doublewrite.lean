import Verif.Props.SystemOrder
/-!
# C119: the doublewrite buffer

Before pages of any tablespace are written in place, copies of them are written to the doublewrite buffer, which takes up the pages 64 to 191 of the system file.
The copies have the numbers that the pages have in their own files.  The tool reads the buffer like any other part of the file, and of several pages with the same
number it takes the first.
-/

namespace Verif.Props
open Verif Spec

/-- FIL_PAGE_ARCH_LOG_NO_OR_SPACE_ID: the tablespace to which a page belongs, which is 0 for the system tablespace -/
def spaceOf (d : Bytes) : Nat := numAt d 34 4

/-- A system file with the doublewrite buffer `dbl`: all other pages have the number of their position. -/
structure Buffered (pre dbl post : List Bytes) : Prop where
  whole : ∀ p ∈ pre ++ dbl ++ post, p.length = 16384
  before : pre.map pageNumber = List.range 64
  size : dbl.length = 128
  behind : post.map pageNumber = List.range' 192 post.length
  /-- copies of pages of the file have their numbers -/
  own : ∀ d ∈ dbl, spaceOf d = 0 → ∃ p ∈ pre ++ post, pageNumber d = pageNumber p
  /-- pages of other files do not belong to the dictionary -/
  other : ∀ d ∈ dbl, spaceOf d ≠ 0 → field d PAGE_INDEX_ID ∉ [1, 2, 3, 4]

/-- **C119**, as stated: whatever is in the doublewrite buffer, the commands do the same. -/
def C119_statement : Prop :=
  ∀ (env : Env) (pre dbl dbl' post : List Bytes), Buffered pre dbl post → Buffered pre dbl' post →
    (∃ trs crs irs frs, Dictionary (pre ++ post).flatten trs crs irs frs) → SameForAll env (pre ++ dbl ++ post).flatten (pre ++ dbl' ++ post).flatten

/-! ## The pages that are read -/

/-- of pages with the same number, the first -/
theorem filePages_snoc (ps : List Bytes) (p : Bytes) (hl : ∀ q ∈ ps ++ [p], q.length = 16384) :
    filePages (ps ++ [p]).flatten = filePages ps.flatten ++ (if ∃ q ∈ ps, pageNumber q = pageNumber p then [] else [p]) := images_snoc ps p hl

theorem filePages_sub (ps : List Bytes) (hl : ∀ q ∈ ps, q.length = 16384) : ∀ d ∈ filePages ps.flatten, d ∈ ps := by
  induction ps using List.reverseRecOn with
  | nil =>
    have : filePages ([] : List Bytes).flatten = [] := images_flatten [] (by simp) (by simp)
    rw [this]
    exact nofun
  | append_singleton ps p ih =>
    intro d hd
    rw [filePages_snoc ps p hl] at hd
    rcases List.mem_append.mp hd with hd | hd
    · exact List.mem_append_left _ (ih (fun q hq => hl q (List.mem_append_left _ hq)) d hd)
    · split at hd
      · cases hd
      · exact List.mem_append_right _ hd

theorem filePages_both (ps qs : List Bytes) (hl : ∀ q ∈ ps ++ qs, q.length = 16384) :
    filePages (ps ++ qs).flatten = filePages ps.flatten ++ (filePages qs.flatten).filter fun d => decide (∀ p ∈ ps, pageNumber p ≠ pageNumber d) := by
  induction qs using List.reverseRecOn with
  | nil =>
    have : filePages ([] : List Bytes).flatten = [] := images_flatten [] (by simp) (by simp)
    rw [List.append_nil, this, List.filter_nil, List.append_nil]
  | append_singleton qs q ih =>
    have h1 : ∀ x ∈ ps ++ qs, x.length = 16384 := fun x hx => hl x (by rw [← List.append_assoc]; exact List.mem_append_left _ hx)
    have h2 : ∀ x ∈ qs ++ [q], x.length = 16384 := fun x hx => hl x (List.mem_append_right _ hx)
    rw [← List.append_assoc, filePages_snoc (ps ++ qs) q (by rw [List.append_assoc]; exact hl), ih h1, filePages_snoc qs q h2, List.filter_append, List.append_assoc]
    congr 2
    by_cases hq : ∃ x ∈ qs, pageNumber x = pageNumber q
    · obtain ⟨x, hx, he⟩ := hq
      rw [if_pos ⟨x, List.mem_append_right _ hx, he⟩, if_pos ⟨x, hx, he⟩, List.filter_nil]
    · rw [if_neg hq]
      by_cases hp : ∃ x ∈ ps, pageNumber x = pageNumber q
      · obtain ⟨x, hx, he⟩ := hp
        rw [if_pos ⟨x, List.mem_append_left _ hx, he⟩, List.filter_cons_of_neg, List.filter_nil]
        rw [decide_eq_true_eq]
        exact fun h => h x hx he
      · rw [if_neg, List.filter_cons_of_pos, List.filter_nil]
        · rw [decide_eq_true_eq]
          exact fun x hx he => hp ⟨x, hx, he⟩
        · rintro ⟨x, hx, he⟩
          rcases List.mem_append.mp hx with hx | hx
          · exact hp ⟨x, hx, he⟩
          · exact hq ⟨x, hx, he⟩

/-- **What is read:** the pages before the buffer; the first copy of each page in the buffer unless its number is that of a page before the buffer; and the pages
behind the buffer whose numbers do not occur in the buffer. -/
theorem C119_pages (pre dbl post : List Bytes) (hl : ∀ p ∈ pre ++ dbl ++ post, p.length = 16384) (hn : ((pre ++ post).map pageNumber).Nodup) :
    filePages (pre ++ dbl ++ post).flatten = pre ++ ((filePages dbl.flatten).filter fun d => decide (∀ p ∈ pre, pageNumber p ≠ pageNumber d)) ++
      post.filter fun d => decide (∀ x ∈ dbl, pageNumber x ≠ pageNumber d) := by
  have h1 : ∀ p ∈ pre ++ dbl, p.length = 16384 := fun p hp => hl p (List.mem_append_left _ hp)
  rw [List.map_append] at hn
  rw [filePages_both _ _ hl, filePages_both _ _ h1, show filePages pre.flatten = pre from images_flatten pre ?_ ?_, show filePages post.flatten = post from images_flatten post ?_ ?_]
  · congr 1
    refine List.filter_congr fun d hd => ?_
    rw [decide_eq_decide]
    constructor
    · exact fun h x hx => h x (List.mem_append_right _ hx)
    · intro h x hx
      rcases List.mem_append.mp hx with hx | hx
      · exact (List.nodup_append.mp hn).2.2 _ (List.mem_map_of_mem hx) _ (List.mem_map_of_mem hd)
      · exact h x hx
  · exact fun p hp => hl p (List.mem_append_right _ hp)
  · exact (List.nodup_append.mp hn).2.1
  · exact fun p hp => h1 p (List.mem_append_left _ hp)
  · exact (List.nodup_append.mp hn).1

/-- So pages behind the buffer whose numbers occur in it have no influence at all: they can be left out. -/
theorem C119_shadowed (env : Env) (pre dbl post : List Bytes) (hl : ∀ p ∈ pre ++ dbl ++ post, p.length = 16384) (hn : ((pre ++ post).map pageNumber).Nodup) :
    SameForAll env (pre ++ dbl ++ post).flatten (pre ++ dbl ++ post.filter fun d => decide (∀ x ∈ dbl, pageNumber x ≠ pageNumber d)).flatten := by
  apply sameForAll
  rw [C119_pages pre dbl post hl hn, C119_pages pre dbl (post.filter _) ?_ ?_, List.filter_filter]
  · simp only [Bool.and_self]
  · intro p hp
    rcases List.mem_append.mp hp with hp | hp
    · exact hl p (List.mem_append_left _ hp)
    · exact hl p (List.mem_append_right _ (List.mem_filter.mp hp).1)
  · exact hn.sublist ((List.filter_sublist.append_left pre).map pageNumber)

/-! ## Buffers without influence -/

theorem buffered_numbers {pre dbl post : List Bytes} (h : Buffered pre dbl post) : ((pre ++ post).map pageNumber).Nodup := by
  rw [List.map_append, h.before, h.behind, List.nodup_append]
  refine ⟨List.nodup_range, List.nodup_range', ?_⟩
  intro a ha b hb
  rw [List.mem_range] at ha
  have := (List.mem_range'_1.mp hb).1
  omega

theorem dictionary_pages {pre dbl post : List Bytes} (hl : ∀ p ∈ pre ++ dbl ++ post, p.length = 16384) (hn : ((pre ++ post).map pageNumber).Nodup)
    (hd : ∀ d ∈ dbl, (∃ p ∈ pre, pageNumber d = pageNumber p) ∨ ¬ OfDict d ∧ ∀ p ∈ post, OfDict p → pageNumber d ≠ pageNumber p) :
    (filePages (pre ++ dbl ++ post).flatten).filter (fun d => decide (OfDict d)) = (pre ++ post).filter fun d => decide (OfDict d) := by
  rw [C119_pages pre dbl post hl hn, List.filter_append, List.filter_append, List.filter_append]
  have h1 : ((filePages dbl.flatten).filter fun d => decide (∀ p ∈ pre, pageNumber p ≠ pageNumber d)).filter (fun d => decide (OfDict d)) = [] := by
    rw [List.filter_eq_nil_iff]
    intro d hx ho
    obtain ⟨hx, h⟩ := List.mem_filter.mp hx
    rw [decide_eq_true_eq] at h ho
    rcases hd d (filePages_sub dbl (fun q hq => hl q (by simp [hq])) d hx) with ⟨p, hp, he⟩ | ⟨hc, _⟩
    · exact h p hp he.symm
    · exact hc ho
  rw [h1, List.append_nil, List.filter_filter]
  congr 1
  refine List.filter_congr fun p hp => ?_
  rw [Bool.and_eq_left_iff_imp, decide_eq_true_eq, decide_eq_true_eq]
  intro ho x hx
  rcases hd x hx with ⟨q, hq, he⟩ | ⟨_, h⟩
  · rw [he]
    rw [List.map_append] at hn
    exact (List.nodup_append.mp hn).2.2 _ (List.mem_map_of_mem hq) _ (List.mem_map_of_mem hp)
  · exact h p hp ho

/-- **C119, in part:** true if each page in the buffer has the number of a page before the buffer, or is neither a page of the dictionary nor has the number of one
behind the buffer.  (Missing: pages with the number of a page of the dictionary behind the buffer, see `C119_false`, and earlier contents of pages of the
dictionary which are not before the buffer.) -/
theorem C119_numbers_partial (env : Env) (pre dbl dbl' post : List Bytes) (h : Buffered pre dbl post) (h' : Buffered pre dbl' post)
    (hd : ∀ d ∈ dbl ++ dbl', (∃ p ∈ pre, pageNumber d = pageNumber p) ∨ ¬ OfDict d ∧ ∀ p ∈ post, OfDict p → pageNumber d ≠ pageNumber p) :
    SameForAll env (pre ++ dbl ++ post).flatten (pre ++ dbl' ++ post).flatten := by
  apply sameForAll
  rw [dictionary_pages h.whole (buffered_numbers h) fun d hx => hd d (List.mem_append_left _ hx),
    dictionary_pages h'.whole (buffered_numbers h) fun d hx => hd d (List.mem_append_right _ hx)]

/-- **C119, in part:** true for pages of other files if the dictionary is before the buffer. -/
theorem C119_before_partial (env : Env) (pre dbl dbl' post : List Bytes) (h : Buffered pre dbl post) (h' : Buffered pre dbl' post)
    (hpost : ∀ p ∈ post, ¬ OfDict p) (hd : ∀ d ∈ dbl ++ dbl', spaceOf d = 0 → ∃ p ∈ pre, pageNumber d = pageNumber p) :
    SameForAll env (pre ++ dbl ++ post).flatten (pre ++ dbl' ++ post).flatten := by
  refine C119_numbers_partial env pre dbl dbl' post h h' fun d hx => ?_
  by_cases hs : spaceOf d = 0
  · exact .inl (hd d hx hs)
  · by_cases h7 : pageNumber d = 7
    · have : 7 ∈ pre.map pageNumber := by rw [h.before]; decide
      obtain ⟨p, hp, he⟩ := List.mem_map.mp this
      exact .inl ⟨p, hp, h7.trans he.symm⟩
    · refine .inr ⟨?_, fun p hp ho => absurd ho (hpost p hp)⟩
      rintro (h1 | h1)
      · exact h7 h1
      · rcases List.mem_append.mp hx with hx | hx
        · exact h.other d hx hs h1
        · exact h'.other d hx hs h1

/-! ## A page of another file in the buffer -/

/-- the record of the root of SYS_TABLES, whose only leaf is page 192 -/
def dwNode : List OldCell := [wcell (b! "shop/t"), wcell (beEnc 4 192)]
def dwColumns : List ColumnRow := [spreadA, spreadB, spreadC]

/-- a page without an index -/
def dwBlank (n : Nat) : Bytes := fill (nul 4 ++ beEnc 4 n ++ nul 82)
/-- a page of the index 30 in tablespace 5 -/
def dwOther (n : Nat) : Bytes := fill (nul 4 ++ beEnc 4 n ++ nul 16 ++ beEnc 2 17855 ++ nul 8 ++ beEnc 4 5 ++ nul 28 ++ beEnc 8 30 ++ nul 16)
def dwLeaf : Bytes := fill (sysTree 192 1 (spreadTables.map tableRec))

/-- the pages before the buffer -/
def dwPlace (i : Nat) : Bytes :=
  if i = 7 then fill sysHeader else if i = 8 then fill (sysTree 8 1 [dwNode]) else if i = 10 then fill (sysTree 10 2 (dwColumns.map columnRec))
  else if i = 11 then fill (sysTree 11 3 (spreadIndexes.map indexRec)) else if i = 12 then fill (sysTree 12 4 []) else dwBlank i
def dwBefore : List Bytes := (List.range 64).map dwPlace

def dwId (i : Nat) : Nat := if i = 7 then 8 else if i = 8 then 1 else if i = 10 then 2 else if i = 11 then 3 else if i = 12 then 4 else 0

theorem dw_rootPage : PageOf (fill (sysTree 8 1 [dwNode])) false 8 1 [oldRec dwNode] [] :=
  sysTree_page (f := fun _ : Unit => dwNode) (rs := [()]) (by decide) (by decide) (by decide)
theorem dw_columnsPage : PageOf (fill (sysTree 10 2 (dwColumns.map columnRec))) false 10 2 ((dwColumns.map columnRec).map oldRec) [] :=
  sysTree_page (by decide) (by decide) (by decide)
theorem dw_leafPage : PageOf dwLeaf false 192 1 ((spreadTables.map tableRec).map oldRec) [] := sysTree_page (by decide) (by decide) (by decide)

theorem dw_blank (n : Nat) (h : n < 256 ^ 4) :
    (dwBlank n).length = 16384 ∧ pageNumber (dwBlank n) = n ∧ field (dwBlank n) PAGE_INDEX_ID = 0 ∧ spaceOf (dwBlank n) = 0 := by
  have hl : (nul 4 ++ beEnc 4 n ++ nul 82).length = 90 := by simp [nul]
  have hb : nul 4 ++ beEnc 4 n ++ nul 82 = (nul 4 ++ beEnc 4 n) ++ nul 82 ++ [] := by simp
  have hp : (nul 4 ++ beEnc 4 n).length = 8 := by simp [nul]
  refine ⟨pad_length _ (by rw [hl]; decide), ?_, ?_, ?_⟩
  · exact ((numAt_pad _ 4 4 (by rw [hl]; decide)).trans (numAt_mid _ _ 4 n 4 (by simp [nul]))).trans (Nat.mod_eq_of_lt h)
  · refine (numAt_pad _ 66 8 (by rw [hl]; decide)).trans ?_
    rw [hb]
    exact numAt_nul _ _ _ _ _ (by rw [hp]; decide) (by rw [hp]; decide)
  · refine (numAt_pad _ 34 4 (by rw [hl]; decide)).trans ?_
    rw [hb]
    exact numAt_nul _ _ _ _ _ (by rw [hp]; decide) (by rw [hp]; decide)

def dwOtherTop (n : Nat) : Bytes := nul 4 ++ beEnc 4 n ++ nul 16 ++ beEnc 2 17855 ++ nul 8 ++ beEnc 4 5 ++ nul 28 ++ beEnc 8 30 ++ nul 16

theorem dw_other {n : Nat} (h : n = 192 ∨ n = 300) :
    (dwOther n).length = 16384 ∧ pageNumber (dwOther n) = n ∧ field (dwOther n) PAGE_INDEX_ID = 30 ∧ spaceOf (dwOther n) = 5 := by
  have hl : (dwOtherTop n).length = 90 := by rcases h with rfl | rfl <;> decide
  refine ⟨pad_length (dwOtherTop n) (by rw [hl]; decide), (numAt_pad (dwOtherTop n) 4 4 (by rw [hl]; decide)).trans ?_,
    (numAt_pad (dwOtherTop n) 66 8 (by rw [hl]; decide)).trans ?_, (numAt_pad (dwOtherTop n) 34 4 (by rw [hl]; decide)).trans ?_⟩ <;>
    rcases h with rfl | rfl <;> decide

theorem dw_place (i : Nat) (hi : i < 64) : (dwPlace i).length = 16384 ∧ pageNumber (dwPlace i) = i ∧ field (dwPlace i) PAGE_INDEX_ID = dwId i := by
  unfold dwPlace dwId
  split
  · rename_i h; rw [h]; exact ⟨spread_headerLength, spread_header.1, spread_header.2.1⟩
  split
  · rename_i h; rw [h]; exact ⟨dw_rootPage.length, dw_rootPage.number, dw_rootPage.index⟩
  split
  · rename_i h; rw [h]; exact ⟨dw_columnsPage.length, dw_columnsPage.number, dw_columnsPage.index⟩
  split
  · rename_i h; rw [h]; exact ⟨spread_indexesPage.length, spread_indexesPage.number, spread_indexesPage.index⟩
  split
  · rename_i h; rw [h]; exact ⟨spread_fieldsPage.length, spread_fieldsPage.number, spread_fieldsPage.index⟩
  · obtain ⟨h1, h2, h3, -⟩ := dw_blank i (by omega)
    exact ⟨h1, h2, h3⟩

theorem dw_numbers : dwBefore.map pageNumber = List.range 64 := by
  unfold dwBefore
  rw [List.map_map]
  conv_rhs => rw [← List.map_id (List.range 64)]
  exact List.map_congr_left fun i hi => (dw_place i (List.mem_range.mp hi)).2.1

theorem dw_whole : ∀ p ∈ dwBefore, p.length = 16384 := by
  intro p hp
  obtain ⟨i, hi, rfl⟩ := List.mem_map.mp hp
  exact (dw_place i (List.mem_range.mp hi)).1

theorem dw_filter (id : Nat) : dwBefore.filter (fun d => field d PAGE_INDEX_ID == id) = ((List.range 64).filter fun i => dwId i == id).map dwPlace := by
  unfold dwBefore
  rw [List.filter_map]
  refine congrArg (List.map dwPlace) (List.filter_congr fun i hi => ?_)
  rw [Function.comp_apply, (dw_place i (List.mem_range.mp hi)).2.2]

/-- the buffer with 128 times this page -/
def dwBuffer (d : Bytes) : List Bytes := List.replicate 128 d

theorem dw_buffered {d : Bytes} {post : List Bytes} (hq : post = [dwLeaf] ∨ post = []) (hl : d.length = 16384) (h0 : spaceOf d = 0 → pageNumber d = 0) (hi : field d PAGE_INDEX_ID ∉ [1, 2, 3, 4]) :
    Buffered dwBefore (dwBuffer d) post where
  whole := by
    intro p hp
    rcases List.mem_append.mp hp with hp | hp
    · rcases List.mem_append.mp hp with hp | hp
      · exact dw_whole p hp
      · rw [(List.mem_replicate.mp hp).2]; exact hl
    · rcases hq with rfl | rfl
      · rw [List.mem_singleton.mp hp]; exact dw_leafPage.length
      · cases hp
  before := dw_numbers
  size := List.length_replicate
  behind := by
    rcases hq with rfl | rfl
    · rw [List.map_cons, List.map_nil, dw_leafPage.number]
      rfl
    · rfl
  own := by
    intro x hx hs
    rw [(List.mem_replicate.mp hx).2] at hs ⊢
    refine ⟨dwPlace 0, List.mem_append_left _ (List.mem_map_of_mem (by decide)), ?_⟩
    rw [h0 hs, (dw_place 0 (by decide)).2.1]
  other := by
    intro x hx _
    rw [(List.mem_replicate.mp hx).2]
    exact hi

theorem dw_empty : Buffered dwBefore (dwBuffer (dwBlank 0)) [dwLeaf] := by
  obtain ⟨h1, h2, h3, -⟩ := dw_blank 0 (by decide)
  exact dw_buffered (.inl rfl) h1 (fun _ => h2) (by rw [h3]; decide)

theorem dw_copy {n : Nat} (h : n = 192 ∨ n = 300) : Buffered dwBefore (dwBuffer (dwOther n)) [dwLeaf] := by
  obtain ⟨h1, -, h3, h4⟩ := dw_other h
  exact dw_buffered (.inl rfl) h1 (fun h => by rw [h4] at h; cases h) (by rw [h3]; decide)

/-- The hypotheses of `C119_numbers_partial`: a page with the number 300 in the buffer. -/
example (env : Env) : SameForAll env (dwBefore ++ dwBuffer (dwOther 300) ++ [dwLeaf]).flatten (dwBefore ++ dwBuffer (dwBlank 0) ++ [dwLeaf]).flatten := by
  refine C119_numbers_partial env _ _ _ _ (dw_copy (.inr rfl)) dw_empty fun d hd => ?_
  rcases List.mem_append.mp hd with hd | hd <;> rw [(List.mem_replicate.mp hd).2]
  · obtain ⟨h1, h2, h3, -⟩ := dw_other (n := 300) (.inr rfl)
    refine .inr ⟨?_, ?_⟩
    · rintro (h | h)
      · rw [h2] at h; cases h
      · rw [h3] at h; revert h; decide
    · intro p hp _
      rw [List.mem_singleton.mp hp, h2, dw_leafPage.number]
      decide
  · exact .inl ⟨dwPlace 0, List.mem_map_of_mem (by decide), by rw [(dw_blank 0 (by decide)).2.1, (dw_place 0 (by decide)).2.1]⟩

/-- The hypotheses of `C119_before_partial`: a file without pages behind the buffer. -/
example (env : Env) : SameForAll env (dwBefore ++ dwBuffer (dwOther 192) ++ []).flatten (dwBefore ++ dwBuffer (dwBlank 0) ++ []).flatten := by
  obtain ⟨h1, -, h3, h4⟩ := dw_other (n := 192) (.inl rfl)
  obtain ⟨g1, g2, g3, -⟩ := dw_blank 0 (by decide)
  refine C119_before_partial env _ _ _ _ (dw_buffered (.inr rfl) h1 (fun h => by rw [h4] at h; cases h) (by rw [h3]; decide))
    (dw_buffered (.inr rfl) g1 (fun _ => g2) (by rw [g3]; decide)) nofun fun d hd hs => ?_
  rcases List.mem_append.mp hd with hd | hd <;> rw [(List.mem_replicate.mp hd).2] at hs ⊢
  · rw [h4] at hs; cases hs
  · exact ⟨dwPlace 0, List.mem_map_of_mem (by decide), by rw [g2, (dw_place 0 (by decide)).2.1]⟩

/-- The hypotheses of `C119_shadowed`: the rows of SYS_TABLES do not matter. -/
example (env : Env) : SameForAll env (dwBefore ++ dwBuffer (dwOther 192) ++ [dwLeaf]).flatten (dwBefore ++ dwBuffer (dwOther 192) ++ []).flatten := by
  have h := dw_copy (n := 192) (.inl rfl)
  have := C119_shadowed env _ _ _ h.whole (buffered_numbers h)
  rwa [List.filter_cons_of_neg, List.filter_nil] at this
  rw [decide_eq_true_eq]
  exact fun hx => hx _ (List.mem_replicate.mpr ⟨by decide, rfl⟩) ((dw_other (.inl rfl)).2.1.trans dw_leafPage.number.symm)

/-! ### The dictionary that is read -/

theorem filePages_repeated (d : Bytes) (hl : d.length = 16384) (n : Nat) : filePages (List.replicate (n + 1) d).flatten = [d] := by
  induction n with
  | zero => exact images_flatten [d] (by simpa using hl) (by simp)
  | succ n ih =>
    rw [List.replicate_succ', filePages_snoc, ih, if_pos ⟨d, by simp, rfl⟩, List.append_nil]
    intro q hq
    rw [← List.replicate_succ'] at hq
    rw [(List.mem_replicate.mp hq).2]
    exact hl

theorem dw_numberless {n : Nat} : (∀ p ∈ dwBefore, pageNumber p ≠ n) ↔ 64 ≤ n := by
  constructor
  · intro h
    by_contra hc
    have : n ∈ dwBefore.map pageNumber := by rw [dw_numbers, List.mem_range]; omega
    obtain ⟨p, hp, he⟩ := List.mem_map.mp this
    exact h p hp he
  · intro h p hp he
    have : pageNumber p ∈ dwBefore.map pageNumber := List.mem_map_of_mem hp
    rw [dw_numbers, List.mem_range] at this
    omega

theorem dw_read {d : Bytes} (h : Buffered dwBefore (dwBuffer d) [dwLeaf]) (hl : d.length = 16384) (hn : pageNumber d = 0 ∨ pageNumber d = 192) :
    filePages (dwBefore ++ dwBuffer d ++ [dwLeaf]).flatten = dwBefore ++ [if pageNumber d = 192 then d else dwLeaf] := by
  rw [C119_pages _ _ _ h.whole (buffered_numbers h), show filePages (dwBuffer d).flatten = [d] from filePages_repeated d hl 127, List.append_assoc]
  congr 1
  rcases hn with hn | hn
  · rw [List.filter_cons_of_neg, List.filter_nil, List.filter_cons_of_pos, List.filter_nil, if_neg (by rw [hn]; decide)]
    · rfl
    · rw [decide_eq_true_eq]
      intro x hx
      rw [(List.mem_replicate.mp hx).2, hn, dw_leafPage.number]
      decide
    · rw [decide_eq_true_eq, dw_numberless, hn]
      decide
  · rw [List.filter_cons_of_pos, List.filter_nil, List.filter_cons_of_neg, List.filter_nil, if_pos hn]
    · rfl
    · rw [decide_eq_true_eq]
      intro hx
      exact hx d (List.mem_replicate.mpr ⟨by decide, rfl⟩) (hn.trans dw_leafPage.number.symm)
    · rw [decide_eq_true_eq, dw_numberless, hn]
      decide

/-- the rows of the dictionary if page 192 is this page, with these rows -/
theorem dw_rows {c x : Bytes} {trs : List TableRow} (hc : filePages c = dwBefore ++ [x]) (hx : x = dwLeaf ∧ trs = spreadTables ∨ x = dwOther 192 ∧ trs = []) :
    SystemFile c trs dwColumns spreadIndexes [] := by
  obtain ⟨n0, -, r1, r2, r3, r4⟩ := spread_header
  have hid : field x PAGE_INDEX_ID = 1 ∨ field x PAGE_INDEX_ID = 30 := by
    rcases hx with ⟨rfl, _⟩ | ⟨rfl, _⟩
    · exact .inl dw_leafPage.index
    · exact .inr (dw_other (.inl rfl)).2.2.1
  have hf : ∀ id, id ≠ 1 → id ≠ 30 → (filePages c).filter (fun d => field d PAGE_INDEX_ID == id) = ((List.range 64).filter fun i => dwId i == id).map dwPlace := by
    intro id h1 h2
    rw [hc, List.filter_append, dw_filter, List.filter_cons_of_neg, List.filter_nil, List.append_nil]
    rcases hid with h | h <;> rw [h] <;> simp [Ne.symm h1, Ne.symm h2]
  refine ⟨dwPlace 7, by rw [hc]; exact List.mem_append_left _ (List.mem_map_of_mem (by decide)), n0, ?_,
    ⟨dwPlace 10, [], [dwColumns], by rw [hf 2 (by decide) (by decide)]; exact congrArg (List.map dwPlace) (a₂ := [10]) (by decide),
      dw_columnsPage.number.trans r2.symm, .cons ?_ .nil, rfl⟩,
    ⟨dwPlace 11, [], [spreadIndexes], by rw [hf 3 (by decide) (by decide)]; exact congrArg (List.map dwPlace) (a₂ := [11]) (by decide),
      spread_indexesPage.number.trans r3.symm, .cons ?_ .nil, rfl⟩,
    ⟨dwPlace 12, [], [[]], by rw [hf 4 (by decide) (by decide)]; exact congrArg (List.map dwPlace) (a₂ := [12]) (by decide),
      spread_fieldsPage.number.trans r4.symm, .cons ?_ .nil, rfl⟩⟩
  · have hroot : TreePage TablesLeaf [none] (dwPlace 8) [] := by
      show TreePage TablesLeaf [none] (fill (sysTree 8 1 [dwNode])) []
      have hu := dw_rootPage.used
      have hl := dw_rootPage.linked
      have hf := dw_rootPage.fmt
      generalize fill (sysTree 8 1 [dwNode]) = d at hu hl hf
      cases hu with
      | cons h1 _ => exact .node hf hl (written_old h1.1) ⟨[wcell (b! "shop/t")], wcell (beEnc 4 192), rfl, rfl, by decide⟩
    have h8 : ((List.range 64).filter fun i => dwId i == 1).map dwPlace = [dwPlace 8] := congrArg (List.map dwPlace) (a₂ := [8]) (by decide)
    rcases hx with ⟨rfl, rfl⟩ | ⟨rfl, rfl⟩
    · refine ⟨dwPlace 8, [dwLeaf], [[], spreadTables], ?_, dw_rootPage.number.trans r1.symm, .cons hroot (.cons ?_ .nil), rfl⟩
      · rw [hc, List.filter_append, dw_filter, h8, List.filter_cons_of_pos (by rw [dw_leafPage.index]; rfl), List.filter_nil]
        rfl
      · refine sysTree_tree dw_leafPage ?_
        intro r hr
        have : r.id < 2 ^ 64 ∧ r.space < 2 ^ 32 := by revert r; decide
        exact ⟨this.1, this.2, nul 6, nul 7, nul 4, beEnc 4 1, nul 8, nul 4, [], rfl, rfl, rfl, rfl, rfl, rfl⟩
    · refine ⟨dwPlace 8, [], [[]], ?_, dw_rootPage.number.trans r1.symm, .cons hroot .nil, rfl⟩
      rw [hc, List.filter_append, dw_filter, h8, List.filter_cons_of_neg (by rw [(dw_other (.inl rfl)).2.2.1]; decide), List.filter_nil]
      rfl
  · show TreePage ColumnsLeaf [some 8, some 4] (fill (sysTree 10 2 (dwColumns.map columnRec))) dwColumns
    refine sysTree_tree dw_columnsPage ?_
    intro r hr
    have : r.tableId < 2 ^ 64 ∧ r.pos < 2 ^ 32 ∧ r.mtype < 2 ^ 32 ∧ r.prtype < 2 ^ 32 ∧ r.len < 2 ^ 32 := by revert r; decide
    exact ⟨this.1, this.2.1, this.2.2.1, this.2.2.2.1, this.2.2.2.2, nul 6, nul 7, nul 4, rfl, rfl, rfl, rfl⟩
  · show TreePage IndexesLeaf [some 8, some 8] (fill (sysTree 11 3 (spreadIndexes.map indexRec))) spreadIndexes
    refine sysTree_tree spread_indexesPage ?_
    intro r hr
    have : r.tableId < 2 ^ 64 ∧ r.id < 2 ^ 64 ∧ r.nFields < 2 ^ 32 ∧ r.itype < 2 ^ 32 := by revert r; decide
    exact ⟨this.1, this.2.1, this.2.2.1, this.2.2.2, nul 6, nul 7, nul 4, nul 4, rfl, rfl, rfl, rfl, rfl⟩
  · show TreePage FieldsLeaf [some 8, some 4] (fill (sysTree 12 4 [])) []
    exact sysTree_tree (f := fieldRec) (rs := []) spread_fieldsPage (by simp)

/-- With page 192 of another file in the buffer, the only thing the data command ever prints is that a table was not found, and the redo command prints nothing. -/
theorem dw_lost (env : Env) (out : Out) :
    (∀ a : FromData, dataWith env a (dwBefore ++ dwBuffer (dwOther 192) ++ [dwLeaf]).flatten out = .ok () (out ++ [b! "Table ID have not found 21"])) ∧
      ∀ fs a spare, redoWith env fs a spare (dwBefore ++ dwBuffer (dwOther 192) ++ [dwLeaf]).flatten out = .ok () out := by
  obtain ⟨h1, h2, -, -⟩ := dw_other (n := 192) (.inl rfl)
  have hr := dw_read (dw_copy (.inl rfl)) h1 (.inr h2)
  rw [if_pos h2] at hr
  obtain ⟨-, q1, q2⟩ := C63_unknown_table env _ [] dwColumns spreadIndexes [] (dw_rows hr (.inr ⟨rfl, rfl⟩)) [⟨20, 30, b! "GEN_CLUST_INDEX", 0, 1⟩] []
    ⟨21, 31, b! "GEN_CLUST_INDEX", 0, 1⟩ rfl (by simp) (by simp) out
  exact ⟨fun a => q1 _ rfl, fun fs a spare => q2 _ fs spare rfl⟩

theorem dw_dictionary {c : Bytes} (hc : filePages c = dwBefore ++ [dwLeaf]) : Dictionary c spreadTables dwColumns spreadIndexes [] where
  file := dw_rows hc (.inl ⟨rfl, rfl⟩)
  indexes := by decide
  ids := by decide
  names := (spread_dictionary (.inl rfl)).names

/-- **C119 is false:** a page of another file in the buffer that has the number of the page with the rows of SYS_TABLES. -/
theorem C119_false : ¬ C119_statement := by
  intro h
  have hplain : filePages (dwBefore ++ [dwLeaf]).flatten = dwBefore ++ [dwLeaf] :=
    images_flatten _ (fun p hp => dw_empty.whole p (by
      rcases List.mem_append.mp hp with hp | hp
      · exact List.mem_append_left _ (List.mem_append_left _ hp)
      · exact List.mem_append_right _ hp)) (buffered_numbers dw_empty)
  have hs := h testEnv _ _ _ _ dw_empty (dw_copy (.inl rfl)) ⟨_, _, _, _, dw_dictionary hplain⟩
  have e := congrFun (hs.1 ⟨.ok [], .ok [], b! "shop", b! "t", b! "RecoveryStruct"⟩) []
  rw [(dw_lost testEnv []).1] at e
  obtain ⟨h1, h2, -, -⟩ := dw_blank 0 (by decide)
  have hr := dw_read dw_empty h1 (.inl h2)
  rw [if_neg (by rw [h2]; decide)] at hr
  obtain ⟨lay, hl, -⟩ := loads_arranged testEnv _ _ _ _ _ (dw_dictionary hr).file (dw_dictionary hr).indexes (spread_usual _)
  obtain ⟨tables, dict, hp, -⟩ := hl []
  have hsel : selectedPages [] false = [] := by decide
  have := (C51_operation testEnv ⟨.ok (dwBefore ++ dwBuffer (dwBlank 0) ++ [dwLeaf]).flatten, .ok [], b! "shop", b! "t", b! "RecoveryStruct"⟩ [] _ [] hp rfl).2
    (show b! "RecoveryStruct" ≠ b! "RecoveryData" by decide) (by rw [hsel]; exact nofun)
  rw [hsel] at this
  have e2 := this.symm.trans e
  injection e2 with _ e2
  cases e2

end Verif.Props
