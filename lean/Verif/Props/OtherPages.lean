import Verif.Props.DataCut
/-!
# C82: pages that are not to be decoded have no influence
-/

namespace Verif.Props
open Verif Spec

/-- Running the data command on a file with this content. -/
def runOn (env : Env) (a : FromData) (content : Bytes) : GoM Out Unit := fromDataFile env { a with tableFile := .ok content }

/-- the operation that was chosen -/
def Recovering (a : FromData) : Bool := a.opType == b! "RecoveryData"

theorem same_selected {env : Env} {a : FromData} {c c' : Bytes}
    (h : selectedPages c (Recovering a) = selectedPages c' (Recovering a)) : runOn env a c = runOn env a c' := by
  funext out
  unfold runOn fromDataFile
  dsimp only
  cases parseDictPage env a.sysFile { out := out } with
  | panic s => rfl
  | hang s => rfl
  | ok e s =>
    cases e with
    | some e => rfl
    | none =>
      dsimp only
      rw [parseDataPage_run, parseDataPage_run]
      unfold Recovering at h
      rw [h]

theorem filter_cons_eq {α : Type} {p : α → Bool} {x y : α} {l m : List α} (h : x = y) (ih : l.filter p = m.filter p) :
    (x :: l).filter p = (y :: m).filter p := by
  subst h
  rw [List.filter_cons, List.filter_cons, ih]

/-- **C82, pages overwritten in place.** Two files agree page by page, except for pages that are not to be decoded in either
file and have the same number in both.  Then the command prints the same for both and ends in the same way: this covers index
pages of secondary indexes and of inner levels, undo, allocation, BLOB and free pages, with whatever content. -/
theorem C82_in_place (env : Env) (a : FromData) (c c' : Bytes) (hn : pageCount c = pageCount c')
    (h : ∀ k < pageCount c, pageImage c k = pageImage c' k ∨ (pageNumber (pageImage c k) = pageNumber (pageImage c' k) ∧
      ¬ Selected (Recovering a) (pageImage c k) ∧ ¬ Selected (Recovering a) (pageImage c' k))) :
    runOn env a c = runOn env a c' := by
  apply same_selected
  have hnum : ∀ k < pageCount c, pageNumber (pageImage c k) = pageNumber (pageImage c' k) := by
    intro k hk
    rcases h k hk with h | h
    · rw [h]
    · exact h.1
  have hf : firstCopies c = firstCopies c' := by
    unfold firstCopies
    rw [← hn]
    apply List.filter_congr
    intro k hk
    rw [List.mem_range] at hk
    rw [Bool.eq_iff_iff, List.all_eq_true, List.all_eq_true]
    constructor <;> intro hall i hi <;> have := hall i hi <;> rw [List.mem_range] at hi
    · rwa [hnum i (by omega), hnum k hk] at this
    · rwa [← hnum i (by omega), ← hnum k hk] at this
  unfold selectedPages
  rw [← hf]
  have hmem : ∀ k ∈ firstCopies c, k < pageCount c := by
    intro k hk
    unfold firstCopies at hk
    exact List.mem_range.mp (List.mem_filter.mp hk).1
  revert hmem
  generalize firstCopies c = l
  intro hmem
  induction l with
  | nil => rw [List.map_nil, List.map_nil]
  | cons k l ih =>
    have ih := ih fun j hj => hmem j (by simp [hj])
    rw [List.map_cons, List.map_cons]
    rcases h k (hmem k (by simp)) with he | ⟨_, h1, h2⟩
    · exact filter_cons_eq he ih
    · rw [List.filter_cons_of_neg (by simpa using h1), List.filter_cons_of_neg (by simpa using h2), ih]

/-- **C82, pages added or removed.** Two files are made of pages with different numbers, and the pages that are to be decoded
are the same, in the same order.  Then the command prints the same for both and ends in the same way. -/
theorem C82_other_pages (env : Env) (a : FromData) (ps ps' : List Bytes) (hl : ∀ p ∈ ps, p.length = 16384) (hl' : ∀ p ∈ ps', p.length = 16384)
    (hn : (ps.map pageNumber).Nodup) (hn' : (ps'.map pageNumber).Nodup)
    (h : ps.filter (fun d => decide (Selected (Recovering a) d)) = ps'.filter (fun d => decide (Selected (Recovering a) d))) :
    runOn env a ps.flatten = runOn env a ps'.flatten := by
  apply same_selected
  unfold selectedPages
  rw [images_flatten ps hl hn, images_flatten ps' hl' hn', h]

/-- the pages of a file to which a page is appended -/
theorem images_snoc (ps : List Bytes) (p : Bytes) (hl : ∀ q ∈ ps ++ [p], q.length = 16384) :
    (firstCopies (ps ++ [p]).flatten).map (pageImage (ps ++ [p]).flatten) =
      (firstCopies ps.flatten).map (pageImage ps.flatten) ++
        (if ∃ q ∈ ps, pageNumber q = pageNumber p then [] else [p]) := by
  have hl' : ∀ q ∈ ps, q.length = 16384 := fun q hq => hl q (by simp [hq])
  have hold : ∀ k < ps.length, pageImage (ps ++ [p]).flatten k = pageImage ps.flatten k := by
    intro k hk
    rw [pageImage_flatten _ hl k ps[k] (by rw [List.getElem?_append_left hk, List.getElem?_eq_getElem hk]),
      pageImage_flatten _ hl' k ps[k] (List.getElem?_eq_getElem hk)]
  have hnew : pageImage (ps ++ [p]).flatten ps.length = p :=
    pageImage_flatten _ hl _ _ (by rw [List.getElem?_append_right (Nat.le_refl _), Nat.sub_self]; rfl)
  unfold firstCopies
  rw [pageCount_flatten _ hl, pageCount_flatten _ hl', List.length_append, List.length_singleton, List.range_succ, List.filter_append,
    List.map_append]
  have h1 : (List.range ps.length).filter (fun k => (List.range k).all fun i =>
      pageNumber (pageImage (ps ++ [p]).flatten i) != pageNumber (pageImage (ps ++ [p]).flatten k)) =
      (List.range ps.length).filter (fun k => (List.range k).all fun i =>
      pageNumber (pageImage ps.flatten i) != pageNumber (pageImage ps.flatten k)) := by
    apply List.filter_congr
    intro k hk
    rw [List.mem_range] at hk
    rw [Bool.eq_iff_iff, List.all_eq_true, List.all_eq_true]
    constructor <;> intro hall i hi <;> have := hall i hi <;> rw [List.mem_range] at hi
    · rwa [hold i (by omega), hold k hk] at this
    · rwa [hold i (by omega), hold k hk]
  rw [h1]
  refine congrArg₂ (· ++ ·) ?_ ?_
  · apply List.map_congr_left
    intro k hk
    exact hold k (List.mem_range.mp (List.mem_filter.mp hk).1)
  · by_cases he : ∃ q ∈ ps, pageNumber q = pageNumber p
    · rw [if_pos he, List.filter_cons_of_neg, List.filter_nil, List.map_nil]
      obtain ⟨q, hq, hqp⟩ := he
      obtain ⟨i, hi, rfl⟩ := List.getElem_of_mem hq
      intro hall
      rw [List.all_eq_true] at hall
      have := hall i (List.mem_range.mpr hi)
      rw [hnew, hold i hi, pageImage_flatten _ hl' i ps[i] (List.getElem?_eq_getElem hi), bne_iff_ne] at this
      exact this hqp
    · rw [if_neg he, List.filter_cons_of_pos, List.filter_nil, List.map_cons, List.map_nil, hnew]
      rw [List.all_eq_true]
      intro i hi
      rw [List.mem_range] at hi
      rw [hnew, hold i hi, pageImage_flatten _ hl' i ps[i] (List.getElem?_eq_getElem hi), bne_iff_ne]
      exact fun h => he ⟨_, List.getElem_mem hi, h⟩

/-- **C82, pages appended.** Pages at the end of a file that are not to be decoded have no influence, whatever their numbers are:
files are extended with pages of zeros, all of which have the number 0. -/
theorem C82_appended (env : Env) (a : FromData) (ps extra : List Bytes) (hl : ∀ p ∈ ps ++ extra, p.length = 16384)
    (h : ∀ p ∈ extra, ¬ Selected (Recovering a) p) : runOn env a (ps ++ extra).flatten = runOn env a ps.flatten := by
  apply same_selected
  induction extra generalizing ps with
  | nil => rw [List.append_nil]
  | cons p extra ih =>
    have := ih (ps ++ [p]) (fun q hq => hl q (by simpa using hq)) fun q hq => h q (by simp [hq])
    rw [List.append_assoc, List.singleton_append] at this
    rw [this]
    unfold selectedPages
    rw [images_snoc ps p fun q hq => hl q (by simp at hq ⊢; tauto)]
    split
    · rw [List.append_nil]
    · rw [List.filter_append, List.filter_cons_of_neg (by simpa using h p (by simp)), List.filter_nil, List.append_nil]

theorem zeros_field (f : Nat × Nat) : field (List.replicate 16384 0) f = 0 := by
  have h : ∀ n : Nat, beVal (List.replicate n (0 : UInt8)) = 0 := by
    intro n
    induction n with
    | zero => rfl
    | succ n ih =>
      rw [List.replicate_succ]
      unfold beVal at ih ⊢
      rw [List.foldl_cons]
      exact ih
  unfold field numAt
  rw [List.drop_replicate, List.take_replicate]
  exact h _

/-- a page of zeros is not to be decoded -/
theorem zeros_unselected (r : Bool) : ¬ Selected r (List.replicate 16384 0) := by
  intro h
  have := h.1
  rw [zeros_field] at this
  exact absurd this (by decide)

/-- The file of the table `shop.t` extended with pages of zeros, before and after which the command prints the same. -/
example (env : Env) (deleted : Bool) (n : Nat) :
    runOn env (shopArgs (b! "ann") deleted) ([shopPage] ++ List.replicate n (List.replicate 16384 0)).flatten =
      runOn env (shopArgs (b! "ann") deleted) [shopPage].flatten := by
  refine C82_appended env _ _ _ (fun p hp => ?_) fun p hp => ?_
  · rcases List.mem_append.mp hp with hp | hp
    · rw [List.mem_singleton.mp hp]; exact shopPage_length
    · rw [(List.mem_replicate.mp hp).2, List.length_replicate]
  · rw [(List.mem_replicate.mp hp).2]
    exact zeros_unselected _

end Verif.Props
