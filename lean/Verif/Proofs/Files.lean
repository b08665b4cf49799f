import Verif.Proofs.WalkHang
import Verif.Props.Walk
import Verif.Props.Pages
/-! Pages of a data file, one after the other. -/

namespace Verif
open Spec Props

/-- Two rows decoded from the same record, one of those that satisfy `P`. -/
def RowOf (f : Bool) (tables : TableMap) (d : Bytes) (c : Bool) (K : List Column) (P : Nat → Prop)
    (cs ds : List Column) : Prop :=
  cs.map (skelB f) = K ∧ ds.map (skelB f) = K ∧
  ∃ o offsets, (P o ∧ o < 16384 - 6 ∧ o ≠ supremumAt c) ∧ recOffsets tables d c o K = some (some offsets) ∧ SameRow f (d.drop o) offsets 0 cs ds

theorem all2_append {α β : Type} {R : α → β → Prop} {as as' : List α} {bs bs' : List β} (h : All2 R as bs)
    (h' : All2 R as' bs') : All2 R (as ++ as') (bs ++ bs') := by
  induction h with
  | nil => exact h'
  | cons h _ ih => exact .cons h ih

theorem walk_static (f : Bool) (S : Out → Out → Prop) (hS : Stable S) (env : Env) (tables : TableMap) (d : Bytes) (c : Bool)
    (K : List Column) (P : Nat → Prop) (hd : d.length ≤ 16384) (hP : ∀ o o', P o → Next d c o o' → P o')
    (fuel o : Nat) (rows1 rows2 : List (List Column)) (s t : PState) (ho : P o ∨ 16384 ≤ o)
    (hr : All2 (RowOf f tables d c K P) rows1 rows2) (h : SameDefs f S K s t) :
    RRel (SameDefs f S K) (All2 (RowOf f tables d c K P))
      (walk env tables d c fuel o rows1 s) (walk env tables d c fuel o rows2 t) := by
  induction fuel generalizing o rows1 rows2 s t with
  | zero => exact .hang h
  | succ fuel ih =>
    unfold walk
    refine RRel.ite (fun hc => ?_) (fun hc => ?_)
    · have hPo : P o := by rcases ho with ho | ho; exacts [ho, by omega]
      refine RRel.bind (parseOne_static f S hS env tables d c o K s t h) ?_
      intro a b s t hab hst
      cases a with
      | none =>
        cases b with
        | none => exact .ok hr hst
        | some _ => exact absurd hab (by simp [RowRel])
      | some cs =>
        cases b with
        | none => exact absurd hab (by simp [RowRel])
        | some ds =>
          obtain ⟨h1, h2, offsets, h3, h4⟩ := hab
          have hr' : All2 (RowOf f tables d c K P) (rows1 ++ [cs]) (rows2 ++ [ds]) :=
            all2_append hr (.cons ⟨h1, h2, o, offsets, ⟨hPo, by rwa [supremum_eq] at hc⟩, h3, h4⟩ .nil)
          dsimp only
          cases hn : nextOffset d c o with
          | none => exact .panic hst
          | some r =>
            rw [GoM.lift_some_bind, GoM.lift_some_bind]
            cases r with
            | none => exact .ok hr' hst
            | some o' =>
              refine ih o' _ _ s t ?_ hr' hst
              obtain ⟨k1, k2⟩ := nextOffset_some d c o o' (by omega) hd hn
              rcases k2 with k2 | k2
              · left
                rw [supremum_eq] at hc
                exact hP o o' hPo ⟨hc.1, hc.2, k1, k2⟩
              · exact Or.inr k2
    · cases read2 d (38 + 24) with
      | none => exact .panic h
      | some _ => exact .ok hr h

/-- where the walk starts -/
def startOf (d : Bytes) (recovery : Bool) (free : Nat) : Nat :=
  if recovery then free else follow d (isCompact d) (infimumAt (isCompact d))

theorem parsePage_static (f : Bool) (S : Out → Out → Prop) (hS : Stable S) (env : Env) (tables : TableMap) (d : Bytes)
    (recovery : Bool) (free : Nat) (K : List Column) (P : Nat → Prop) (hd : d.length = 16384)
    (hP : ∀ o o', P o → Next d (isCompact d) o o' → P o') (hP0 : P (startOf d recovery free)) (s t : PState)
    (h : SameDefs f S K s t) :
    RRel (SameDefs f S K) (All2 (RowOf f tables d (isCompact d) K P))
      (parsePage env tables d recovery free s) (parsePage env tables d recovery free t) := by
  obtain ⟨v, hv, hc⟩ := pageIsCompact_eq d (by omega)
  unfold parsePage
  rw [hv, GoM.lift_some_bind, hc]
  unfold startOf at hP0
  generalize isCompact d = c at *
  have hr : read2 d (pageInfimum c - 2) = some (link d (infimumAt c)) := by
    rw [infimum_eq, read2_eq, read_at d _ (by cases c <;> simp [infimumAt, hd])]
    rfl
  rw [hr, GoM.lift_some_bind]
  refine walk_static f S hS env tables d c K P (by omega) hP walkFuel _ [] [] s t ?_ .nil h
  cases recovery with
  | true => left; simpa using hP0
  | false =>
    simp only [Bool.false_eq_true, if_false] at hP0 ⊢
    have hlt := link_lt d (infimumAt c)
    rw [infimum_eq]
    cases c with
    | false => left; simpa [follow] using hP0
    | true =>
      simp only [if_true]
      by_cases hb : infimumAt true + link d (infimumAt true) < 16384
      · left
        have : follow d true (infimumAt true) = infimumAt true + link d (infimumAt true) := by
          unfold follow; simp only [if_true]; omega
        rw [← this]; exact hP0
      · right; omega

/-- rows that agree because no column lies outside the page -/
theorem sameRow_eq {o : Bytes} {offsets : List Nat} {i : Nat} {cs ds : List Column} (h : SameRow true o offsets i cs ds)
    (hsk : cs.map (skelB true) = ds.map (skelB true)) (hin : ∀ j, i ≤ j → j < i + cs.length → ¬ Outside o offsets j)
    (hn : ∀ c ∈ ds, setsBinary c.ftype c.mtype = true → c.value ≠ .str (b! "NULL")) : cs = ds := by
  induction cs generalizing ds i with
  | nil =>
    cases ds with
    | nil => rfl
    | cons => simp at hsk
  | cons c cs ih =>
    cases ds with
    | nil => simp at hsk
    | cons d ds =>
      simp only [List.map_cons, List.cons.injEq] at hsk
      obtain ⟨h1, h2⟩ := h
      have h1 : SameCell true c d := by
        rcases h1 with h1 | h1
        · exact h1
        · exact absurd h1 (hin i (Nat.le_refl _) (by simp))
      have e2 := ih h2 hsk.2 (fun j hj hj' => hin j (by omega) (by rw [List.length_cons]; omega)) (fun c hc => hn c (by simp [hc]))
      subst e2
      have e1 : c = d := by
        by_cases hv : c.value = .str (b! "NULL")
        · have hns : setsBinary d.ftype d.mtype = false := by
            cases hq : setsBinary d.ftype d.mtype with
            | false => rfl
            | true => exact absurd (h1.1 ▸ hv) (hn d (by simp) hq)
          have hfl := skel_flag hsk.1.symm hns
          obtain ⟨k1, k2, k3, k4, k5, k6, k7, k8, _⟩ := skel_fields hsk.1
          have hv := h1.1
          cases c; cases d
          simp only at k1 k2 k3 k4 k5 k6 k7 k8 hv hfl
          subst k1 k2 k3 k4 k5 k6 k7 k8 hv hfl
          rfl
        · exact h1.2 rfl hv
      rw [e1]

theorem rows_eq {tables : TableMap} {d : Bytes} {c : Bool} {K : List Column} {P : Nat → Prop} {rows1 rows2 : List (List Column)}
    (h : All2 (RowOf true tables d c K P) rows1 rows2)
    (hin : ∀ o offsets j, P o → o < 16384 - 6 → o ≠ supremumAt c → j < K.length →
      recOffsets tables d c o K = some (some offsets) → ¬ Outside (d.drop o) offsets j)
    (hn : ∀ row ∈ rows2, ∀ c ∈ row, setsBinary c.ftype c.mtype = true → c.value ≠ .str (b! "NULL")) : rows1 = rows2 := by
  induction h with
  | nil => rfl
  | cons h _ ih =>
    obtain ⟨h1, h2, o, offsets, hp, h3, h4⟩ := h
    rw [ih (fun r hr => hn r (by simp [hr])),
      sameRow_eq h4 (h1.trans h2.symm) (fun j _ hj => hin o offsets j hp.1 hp.2.1 hp.2.2 (by
        rw [← h1, List.length_map]; omega) h3) (fun c hc => hn _ (by simp) c hc)]

theorem printPage_run (env : Env) (tables : TableMap) (db name : Bytes) (recovery : Bool) (p : Page) (s : PState) :
    printPage env tables db name recovery p s =
      match parsePage env tables p.orig recovery p.ph.free s with
      | .ok rows s' => .ok () { s' with out := s'.out ++ rows.map (replaceStmt env.ff db name) }
      | .panic s' => .panic s'
      | .hang s' => .hang s' := by
  unfold printPage
  rw [GoM.bind_run]
  cases parsePage env tables p.orig recovery p.ph.free s with
  | panic _ => rfl
  | hang _ => rfl
  | ok rows s' =>
    dsimp only
    cases rows with
    | nil => simp [GoM.pure_run]
    | cons r rs => rfl

theorem printPage_full (env : Env) (tables : TableMap) (db name : Bytes) (recovery : Bool) (d : Bytes) (s : PState) :
    printPage env tables db name recovery (fullPage d) s =
      match parsePage env tables d recovery (field d PAGE_FREE) s with
      | .ok rows s' => .ok () { s' with out := s'.out ++ rows.map (replaceStmt env.ff db name) }
      | .panic s' => .panic s'
      | .hang s' => .hang s' := printPage_run env tables db name recovery (fullPage d) s

/-! ## Files made of pages -/

theorem flatten_length (pages : List Bytes) (h : ∀ p ∈ pages, p.length = 16384) :
    pages.flatten.length = 16384 * pages.length := by
  induction pages with
  | nil => rfl
  | cons p ps ih =>
    rw [List.flatten_cons, List.length_append, h p (by simp), ih fun q hq => h q (by simp [hq]), List.length_cons]
    omega

theorem flatten_getElem? (pages : List Bytes) (h : ∀ p ∈ pages, p.length = 16384) (k j : Nat) (hj : j < 16384) :
    pages.flatten[16384 * k + j]? = pages[k]?.bind (·[j]?) := by
  induction pages generalizing k with
  | nil => rfl
  | cons p ps ih =>
    have hp := h p (by simp)
    rw [List.flatten_cons]
    cases k with
    | zero =>
      rw [List.getElem?_append_left (by omega), Nat.mul_zero, Nat.zero_add]
      rfl
    | succ k =>
      rw [List.getElem?_append_right (by omega), hp, show 16384 * (k + 1) + j - 16384 = 16384 * k + j by omega,
        ih fun q hq => h q (by simp [hq])]
      rfl

theorem pageImage_flatten (pages : List Bytes) (h : ∀ p ∈ pages, p.length = 16384) (k : Nat) (p : Bytes)
    (hk : pages[k]? = some p) : pageImage pages.flatten k = p := by
  have hp : p.length = 16384 := h p (List.mem_of_getElem? hk)
  apply List.ext_getElem?
  intro j
  unfold pageImage
  by_cases hj : j < 16384
  · rw [List.getElem?_map, List.getElem?_range (show j < pageSize from hj), Option.map_some, List.getD_eq_getElem?_getD]
    show some ((pages.flatten[16384 * k + j]?).getD 0) = _
    rw [flatten_getElem? pages h k j hj, hk, Option.bind_some, List.getElem?_eq_getElem (by omega)]
    rfl
  · rw [List.getElem?_eq_none (by rw [List.length_map, List.length_range]; show 16384 ≤ j; omega),
      List.getElem?_eq_none (by omega)]

theorem pageCount_flatten (pages : List Bytes) (h : ∀ p ∈ pages, p.length = 16384) :
    pageCount pages.flatten = pages.length := by
  unfold pageCount
  rw [flatten_length pages h]
  show (16384 * pages.length + (16384 - 1)) / 16384 = _
  omega

/-- the pages of a file made of pages with different numbers -/
theorem images_flatten (pages : List Bytes) (h : ∀ p ∈ pages, p.length = 16384) (hn : (pages.map pageNumber).Nodup) :
    (firstCopies pages.flatten).map (pageImage pages.flatten) = pages := by
  have h1 : firstCopies pages.flatten = List.range pages.length := by
    unfold firstCopies
    rw [pageCount_flatten pages h, List.filter_eq_self]
    intro k hk
    rw [List.mem_range] at hk
    rw [List.all_eq_true]
    intro i hi
    rw [List.mem_range] at hi
    rw [pageImage_flatten pages h i _ (List.getElem?_eq_getElem (by omega)),
      pageImage_flatten pages h k _ (List.getElem?_eq_getElem hk), bne_iff_ne]
    intro he
    have := List.pairwise_iff_getElem.mp hn i k (by simp; omega) (by simpa using hk) hi
    simp only [List.getElem_map] at this
    exact this he
  rw [h1]
  apply List.ext_getElem?
  intro k
  rw [List.getElem?_map]
  by_cases hk : k < pages.length
  · rw [List.getElem?_range hk, Option.map_some,
      pageImage_flatten pages h k _ (List.getElem?_eq_getElem hk), List.getElem?_eq_getElem hk]
  · rw [List.getElem?_eq_none (by simpa using hk), List.getElem?_eq_none (by omega)]
    rfl

end Verif
