import Verif.Props.Doublewrite

/-!
# C121: a system tablespace of several files

The system tablespace can consist of several files (`innodb_data_file_path=ibdata1:12M;ibdata2:12M:autoextend`).  The pages are numbered
through all of them, and the dictionary header is in the first.  The tool takes the name of one file.  When the first file is full, further
pages of the dictionary are allocated in the next one.
-/

namespace Verif.Props
open Verif Spec

/-- **C121**, as stated: with the first file of the system tablespace the commands do the same as with all of them, one after the other.
The tablespace is `pre`, the doublewrite buffer `dbl`, and the pages behind it, of which `extra` are in further files. -/
def C121_statement : Prop :=
  ∀ (env : Env) (pre dbl post extra : List Bytes), Buffered pre dbl (post ++ extra) →
    (∃ trs crs irs frs, Dictionary (pre ++ dbl ++ (post ++ extra)).flatten trs crs irs frs) →
    SameForAll env (pre ++ dbl ++ (post ++ extra)).flatten (pre ++ dbl ++ post).flatten

/-- **C121, dictionaries in the first file.** It is true if no page of the further files belongs to the dictionary.  Missing: nothing but this
hypothesis, without which it is false. -/
theorem C121_first_partial (env : Env) (pre dbl post extra : List Bytes) (h : Buffered pre dbl (post ++ extra))
    (he : ∀ p ∈ extra, field p PAGE_INDEX_ID ∉ [1, 2, 3, 4]) :
    SameForAll env (pre ++ dbl ++ (post ++ extra)).flatten (pre ++ dbl ++ post).flatten := by
  rw [← List.append_assoc]
  refine C87_appended_partial env (pre ++ dbl ++ post) extra (by rw [List.append_assoc]; exact h.whole) fun p hp => ⟨?_, he p hp⟩
  have hm : pageNumber p ∈ (post ++ extra).map pageNumber := List.mem_map_of_mem (List.mem_append_right _ hp)
  rw [h.behind] at hm
  have := (List.mem_range'_1.mp hm).1
  omega

/-- a list with an element with a property has a last one -/
theorem last_with {α : Type} (P : α → Prop) [DecidablePred P] (l : List α) (h : ∃ x ∈ l, P x) :
    ∃ pre x post, l = pre ++ x :: post ∧ P x ∧ ∀ y ∈ post, ¬ P y := by
  induction l using List.reverseRecOn with
  | nil => obtain ⟨x, hx, _⟩ := h; cases hx
  | append_singleton l a ih =>
    by_cases ha : P a
    · exact ⟨l, a, [], rfl, ha, nofun⟩
    · obtain ⟨x, hx, hp⟩ := h
      have hx' : x ∈ l := by
        rcases List.mem_append.mp hx with hx | hx
        · exact hx
        · rw [List.mem_singleton.mp hx] at hp; exact absurd hp ha
      obtain ⟨pre, y, post, e, h1, h2⟩ := ih ⟨x, hx', hp⟩
      refine ⟨pre, y, post ++ [a], by rw [e, List.append_assoc]; rfl, h1, ?_⟩
      intro z hz
      rcases List.mem_append.mp hz with hz | hz
      · exact h2 z hz
      · rw [List.mem_singleton.mp hz]; exact ha

/-- **C121, tables in further files.** If the first file has an index of a table whose row of SYS_TABLES is in a further file, no table can be
recovered with the first file alone, also none of those that are entirely described there: the data command prints only that a table was
not found, and the redo command prints nothing. -/
theorem C121_all_lost (env : Env) (first : Bytes) (trs : List TableRow) (crs : List ColumnRow) (irs : List IndexRow) (frs : List FieldRow)
    (h : SystemFile first trs crs irs frs) (hr : ∃ r ∈ irs, ∀ t ∈ trs, t.id ≠ r.tableId) (out : Out) :
    ∃ r ∈ irs, (∀ a, dataWith env a first out = .ok () (out ++ [b! "Table ID have not found " ++ dec r.tableId])) ∧
      ∀ fs a spare, redoWith env fs a spare first out = .ok () out := by
  obtain ⟨pre, r, post, e, h1, h2⟩ := last_with (fun r : IndexRow => ∀ t ∈ trs, t.id ≠ r.tableId) irs hr
  obtain ⟨-, q1, q2⟩ := C63_unknown_table env first trs crs irs frs h pre post r e h1 (fun x hx => by
    have := h2 x hx
    simpa only [not_forall, Decidable.not_not, exists_prop] using this) out
  exact ⟨r, by rw [e]; simp, fun a => q1 _ rfl, fun fs a spare => q2 _ fs spare rfl⟩

/-! ## An instance: the leaf of SYS_TABLES is the first page of the second file -/

/-- what is read of the first file -/
theorem two_first : filePages (dwBefore ++ dwBuffer (dwBlank 0) ++ []).flatten = dwBefore := by
  obtain ⟨h1, h2, h3, -⟩ := dw_blank 0 (by decide)
  have h := dw_buffered (post := []) (.inr rfl) h1 (fun _ => h2) (by rw [h3]; decide)
  rw [C119_pages _ _ _ h.whole (buffered_numbers h), show filePages (dwBuffer (dwBlank 0)).flatten = [dwBlank 0] from filePages_repeated _ h1 127,
    List.filter_nil, List.append_nil, List.filter_cons_of_neg, List.filter_nil, List.append_nil]
  rw [decide_eq_true_eq, h2, dw_numberless]
  decide

/-- The first file has the same pages of the dictionary as the file of `dw_lost`. -/
theorem two_same (env : Env) : SameForAll env (dwBefore ++ dwBuffer (dwBlank 0) ++ []).flatten (dwBefore ++ dwBuffer (dwOther 192) ++ [dwLeaf]).flatten := by
  obtain ⟨h1, h2, h3, -⟩ := dw_other (n := 192) (.inl rfl)
  have hr := dw_read (dw_copy (.inl rfl)) h1 (.inr h2)
  rw [if_pos h2] at hr
  apply sameForAll
  rw [two_first, hr, List.filter_append, List.filter_cons_of_neg, List.filter_nil, List.append_nil]
  rw [decide_eq_true_eq]
  rintro (h | h)
  · rw [h2] at h; cases h
  · rw [h3] at h; revert h; decide

/-- With the first file alone, nothing is recovered. -/
theorem two_lost (env : Env) (out : Out) :
    (∀ a : FromData, dataWith env a (dwBefore ++ dwBuffer (dwBlank 0) ++ []).flatten out = .ok () (out ++ [b! "Table ID have not found 21"])) ∧
      ∀ fs a spare, redoWith env fs a spare (dwBefore ++ dwBuffer (dwBlank 0) ++ []).flatten out = .ok () out :=
  ⟨fun a => by rw [(two_same env).1]; exact (dw_lost env out).1 a, fun fs a spare => by rw [(two_same env).2]; exact (dw_lost env out).2 fs a spare⟩

/-- **C121 is false:** the row of SYS_TABLES of the table is on the first page of the second file. -/
theorem C121_false : ¬ C121_statement := by
  intro h
  obtain ⟨h1, h2, -, -⟩ := dw_blank 0 (by decide)
  have hr := dw_read dw_empty h1 (.inl h2)
  rw [if_neg (by rw [h2]; decide)] at hr
  have hs := h testEnv dwBefore (dwBuffer (dwBlank 0)) [] [dwLeaf] dw_empty ⟨_, _, _, _, dw_dictionary hr⟩
  have e := congrFun (hs.1 ⟨.ok [], .ok [], b! "shop", b! "t", b! "RecoveryStruct"⟩) []
  rw [(two_lost testEnv []).1] at e
  obtain ⟨lay, hl, -⟩ := loads_arranged testEnv _ _ _ _ _ (dw_dictionary hr).file (dw_dictionary hr).indexes (spread_usual _)
  obtain ⟨tables, dict, hp, -⟩ := hl []
  have hsel : selectedPages [] false = [] := by decide
  have := (C51_operation testEnv ⟨.ok (dwBefore ++ dwBuffer (dwBlank 0) ++ [dwLeaf]).flatten, .ok [], b! "shop", b! "t", b! "RecoveryStruct"⟩ [] _ [] hp rfl).2
    (show b! "RecoveryStruct" ≠ b! "RecoveryData" by decide) (by rw [hsel]; exact nofun)
  rw [hsel] at this
  have e2 := this.symm.trans e
  injection e2 with _ e2
  cases e2

/-- The hypotheses of `C121_all_lost`: a system file with an index of a table without a row. -/
example : ∃ c, SystemFile c [] dwColumns spreadIndexes [] ∧ ∃ r ∈ spreadIndexes, ∀ t ∈ ([] : List TableRow), t.id ≠ r.tableId := by
  obtain ⟨h1, h2, -, -⟩ := dw_other (n := 192) (.inl rfl)
  have hr := dw_read (dw_copy (.inl rfl)) h1 (.inr h2)
  rw [if_pos h2] at hr
  exact ⟨_, dw_rows hr (.inr ⟨rfl, rfl⟩), _, List.mem_cons_self, nofun⟩

/-- The hypotheses of `C121_first_partial`: a second file of one page that is not in use. -/
example (env : Env) : SameForAll env (dwBefore ++ dwBuffer (dwBlank 0) ++ ([dwLeaf] ++ [dwBlank 193])).flatten
    (dwBefore ++ dwBuffer (dwBlank 0) ++ [dwLeaf]).flatten := by
  obtain ⟨g1, g2, g3, g4⟩ := dw_blank 193 (by decide)
  obtain ⟨h1, h2, h3, h4⟩ := dw_blank 0 (by decide)
  refine C121_first_partial env _ _ _ _ ⟨?_, dw_numbers, dw_empty.size, ?_, ?_, dw_empty.other⟩ (by
    intro p hp; rw [List.mem_singleton.mp hp, g3]; decide)
  · intro p hp
    rw [← List.append_assoc] at hp
    rcases List.mem_append.mp hp with hp | hp
    · exact dw_empty.whole p hp
    · rw [List.mem_singleton.mp hp]; exact g1
  · have := dw_empty.behind
    rw [List.map_append, this, List.map_singleton, g2]
    rfl
  · intro d hd hs
    obtain ⟨p, hp, he⟩ := dw_empty.own d hd hs
    refine ⟨p, ?_, he⟩
    rw [← List.append_assoc]
    exact List.mem_append_left _ hp

end Verif.Props
