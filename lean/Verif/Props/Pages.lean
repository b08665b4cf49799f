import Verif.Proofs.Pages
/-!
# C18, C19, C26: reading a file, page headers, page selection
-/

namespace Verif.Props
open Verif Spec

/-! ## C18 -/

/-- **C18.** Reading a tablespace file yields, in file order, exactly the first copy of every page number, each page as
its zero-padded 16 KiB image. -/
theorem C18_file_pages (content : Bytes) :
    ∃ pages, parseFile content = some pages ∧
      pages.map (·.orig) = (firstCopies content).map (pageImage content) ∧
      pages.map (·.fh.offset) = (firstCopies content).map (fun k => pageNumber (pageImage content k)) := by
  refine ⟨_, parseFile_eq content, ?_, ?_⟩
  · rw [List.map_map]
    apply List.map_congr_left
    intro k _
    exact rawPage_orig _
  · rw [List.map_map]
    apply List.map_congr_left
    intro k _
    exact rawPage_offset _

/-- No page number is yielded twice. -/
theorem C18_no_duplicates (content : Bytes) (pages : List Page) (h : parseFile content = some pages) :
    (pages.map (·.fh.offset)).Nodup := by
  obtain ⟨ps, h1, _, h3⟩ := C18_file_pages content
  rw [h1] at h
  cases h
  rw [h3]
  have key : ∀ l : List Nat, l.Pairwise (· < ·) → (∀ k ∈ l, isFirst content k = true) →
      (l.map (fun k => pageNumber (pageImage content k))).Nodup := by
    intro l hl hf
    rw [List.Nodup, List.pairwise_map]
    apply hl.imp_of_mem
    intro a b _ hb hab he
    have := hf b hb
    simp only [isFirst, List.all_eq_true, List.mem_range, bne_iff_ne] at this
    exact this a hab he
  apply key
  · exact List.pairwise_lt_range.filter _
  · intro k hk
    exact (List.mem_filter.mp hk).2

/-- Every page of the file is yielded, as itself or as an earlier page with the same number. -/
theorem C18_none_lost (content : Bytes) (pages : List Page) (h : parseFile content = some pages) (k : Nat)
    (hk : k < pageCount content) :
    ∃ i ≤ k, pageNumber (pageImage content i) = pageNumber (pageImage content k) ∧
      ∃ p ∈ pages, p.orig = pageImage content i := by
  obtain ⟨ps, h1, h2, _⟩ := C18_file_pages content
  rw [h1] at h
  cases h
  have find : ∀ n, ∀ k, k < n → k < pageCount content →
      ∃ i ≤ k, pageNumber (pageImage content i) = pageNumber (pageImage content k) ∧ i ∈ firstCopies content := by
    intro n
    induction n with
    | zero => intro k h; omega
    | succ n ih =>
      intro k hkn hk
      by_cases hf : isFirst content k = true
      · exact ⟨k, Nat.le_refl _, rfl, List.mem_filter.mpr ⟨List.mem_range.mpr hk, hf⟩⟩
      · simp only [isFirst, List.all_eq_true, List.mem_range, bne_iff_ne] at hf
        have : ∃ j, j < k ∧ pageNumber (pageImage content j) = pageNumber (pageImage content k) := by
          apply Classical.byContradiction
          intro hne
          exact hf fun j hj he => hne ⟨j, hj, he⟩
        obtain ⟨j, hj, he⟩ := this
        obtain ⟨i, hi, hin, him⟩ := ih j (by omega) (by omega)
        exact ⟨i, by omega, hin.trans he, him⟩
  obtain ⟨i, hi, hin, him⟩ := find (k + 1) k (by omega) hk
  refine ⟨i, hi, hin, ?_⟩
  have : pageImage content i ∈ pages.map (·.orig) := by
    rw [h2]; exact List.mem_map.mpr ⟨i, him, rfl⟩
  obtain ⟨p, hp, hpe⟩ := List.mem_map.mp this
  exact ⟨p, hp, hpe⟩

/-- the padding is zero and the page is the file's bytes -/
theorem C18_page_bytes (content : Bytes) (k j : Nat) (hj : j < pageSize) :
    (pageImage content k).length = pageSize ∧ (pageImage content k)[j]? = some (content.getD (pageSize * k + j) 0) := by
  refine ⟨pageImage_length _ _, ?_⟩
  unfold pageImage
  rw [List.getElem?_map, List.getElem?_range hj]
  rfl

/-- a file of a page and a half has two pages -/
example : pageCount (List.replicate 24576 1) = 2 := by rw [pageCount, List.length_replicate]; decide

/-! ## C19 -/

/-- **C19.** The header fields are the numbers at the documented offsets. -/
theorem C19_headers (page : Bytes) (h : page.length = pageSize) :
    ∃ p p', parseFilHeader page = some p ∧ parsePageHeader p = some p' ∧ p.orig = page ∧ p'.orig = page ∧ p'.fh = p.fh ∧
      p.fh = ⟨field page FIL_PAGE_SPACE_ID, field page FIL_PAGE_OFFSET, field page FIL_PAGE_PREV,
        field page FIL_PAGE_NEXT, field page FIL_PAGE_LSN, field page FIL_PAGE_TYPE,
        field page FIL_PAGE_FILE_FLUSH_LSN, field page FIL_PAGE_ARCH_LOG_NO⟩ ∧
      p.ph.indexId = field page PAGE_INDEX_ID ∧
      p'.ph = ⟨field page PAGE_N_DIR_SLOTS, field page PAGE_HEAP_TOP, field page PAGE_N_HEAP, field page PAGE_FREE,
        field page PAGE_GARBAGE, field page PAGE_LAST_INSERT, field page PAGE_DIRECTION, field page PAGE_N_DIRECTION,
        field page PAGE_N_RECS, field page PAGE_MAX_TRX_ID, field page PAGE_LEVEL, field page PAGE_INDEX_ID⟩ ∧
      parseSysPageHeader p = some
        ⟨field page DICT_HDR_ROW_ID, field page DICT_HDR_TABLE_ID, field page DICT_HDR_INDEX_ID,
         field page DICT_HDR_MAX_SPACE_ID, field page DICT_HDR_MIX_ID_LOW, field page DICT_HDR_TABLES,
         field page DICT_HDR_TABLE_IDS, field page DICT_HDR_COLUMNS, field page DICT_HDR_INDEXES,
         field page DICT_HDR_FIELDS⟩ := by
  have h74 : 74 ≤ page.length := by rw [h]; decide
  have h90 : 90 ≤ page.length := by rw [h]; decide
  refine ⟨rawPage page, fullPage page, ?_, parsePageHeader_eq page h74, rfl, rfl, rfl, rfl, rfl, rfl,
    parseSysPageHeader_eq page h90⟩
  rw [parseFilHeader_eq, if_pos h74]

/-- Reading the headers of a buffer fails exactly when it is shorter than the headers. -/
theorem C19_short (page : Bytes) : parseFilHeader page = none ↔ page.length < 74 := by
  rw [parseFilHeader_eq]
  split
  · simp; omega
  · simp; omega

/-- pages of that length exist: those of any file -/
example (content : Bytes) : (pageImage content 0).length = pageSize := pageImage_length _ _

/-! ## C26 -/

/-- **C26.** The data-file run decodes exactly the selected pages, in order: the loop over the pages of a file is the loop
over those that satisfy `Selected` (a condition on the page's bytes). -/
theorem C26_selected_pages (env : Env) (tables : TableMap) (db name : Bytes) (recovery : Bool) (images : List Bytes)
    (h : ∀ d ∈ images, d.length = pageSize) :
    dataPagesLoop env tables db name recovery (images.map rawPage) =
      (images.filter (fun d => decide (Selected recovery d))).foldr
        (fun d k => (do printPage env tables db name recovery (fullPage d); k)) (pure ()) := by
  induction images with
  | nil => rfl
  | cons d ds ih =>
    have h74 : 74 ≤ d.length := by rw [h d (by simp)]; decide
    rw [List.map_cons, dataPagesLoop, parsePageHeader_eq d h74, GoM.lift_some_bind]
    have ih := ih fun x hx => h x (by simp [hx])
    by_cases hs : Selected recovery d
    · rw [if_pos ((pageSelected_iff recovery d).mpr hs), List.filter_cons_of_pos (by simpa using hs), List.foldr_cons, ih]
    · rw [if_neg (fun hc => hs ((pageSelected_iff recovery d).mp hc)), List.filter_cons_of_neg (by simpa using hs), ih]

/-- the decision on one page, as the code takes it -/
theorem C26_selection (recovery : Bool) (page : Bytes) (h : page.length = pageSize) (p : Page)
    (hp : (do parsePageHeader (← parseFilHeader page)) = some p) :
    pageSelected recovery p = true ↔ Selected recovery page := by
  have h74 : 74 ≤ page.length := by rw [h]; decide
  rw [parseFilHeader_eq, if_pos h74] at hp
  simp only [Option.bind_eq_bind, Option.bind_some, parsePageHeader_eq page h74, Option.some.injEq] at hp
  rw [← hp]
  exact pageSelected_iff recovery page

/-- both answers occur: an all-zero page is not selected; a leaf page with a free list is selected in both modes -/
example : ¬ Selected false (List.replicate 100 0) := by decide
example : Selected true (List.replicate 24 0 ++ [0x45, 0xBF] ++ List.replicate 18 0 ++ [0, 120, 0, 30] ++
    List.replicate 52 0) := by decide

end Verif.Props
