import Verif.Props.Dict
/-!
# C32: the pages of the dictionary, exactly
-/

namespace Verif.Props
open Verif Spec

/-- The pages of an index from the last page on that is numbered as a root and has this index id; none without such a page. -/
def fromLastRoot (sp : SysHeader) (x : Nat) : List Bytes → Option (List Bytes)
  | [] => none
  | d :: ds =>
    match fromLastRoot sp x ds with
    | some l => some l
    | none => if field d PAGE_INDEX_ID = x ∧ pageNumber d ∈ roots sp then some (d :: ds.filter fun d => field d PAGE_INDEX_ID == x) else none

theorem fromLastRoot_none {sp : SysHeader} {x : Nat} {ds : List Bytes} (h : fromLastRoot sp x ds = none) :
    ∀ d ∈ ds, field d PAGE_INDEX_ID = x → pageNumber d ∉ roots sp := by
  induction ds with
  | nil => intro d hd; cases hd
  | cons y ds ih =>
    rw [fromLastRoot] at h
    cases hl : fromLastRoot sp x ds with
    | some l => rw [hl] at h; cases h
    | none =>
      rw [hl] at h
      dsimp only at h
      split at h
      · cases h
      · rename_i hn
        intro d hd hi hr
        rcases List.mem_cons.mp hd with rfl | hd
        · exact hn ⟨hi, hr⟩
        · exact ih hl d hd hi hr

theorem keepPages_exact (sp : SysHeader) (images : List Bytes) (D : GoMap (List DataDict)) (x : Nat) :
    (images.foldl (keepPage sp) D).get? x = match fromLastRoot sp x images with
      | some l => some (l.map entryOf)
      | none => (D.get? x).map (· ++ (images.filter fun d => field d PAGE_INDEX_ID == x).map entryOf) := by
  induction images generalizing D with
  | nil =>
    show D.get? x = (D.get? x).map _
    cases D.get? x <;> simp
  | cons d images ih =>
    rw [List.foldl_cons, ih, fromLastRoot]
    cases hl : fromLastRoot sp x images with
    | some l => rfl
    | none =>
      dsimp only
      rw [keepPage_get]
      by_cases hx : field d PAGE_INDEX_ID = x
      · rw [if_pos hx, List.filter_cons_of_pos (by simp [hx])]
        by_cases hr : pageNumber d ∈ roots sp
        · rw [if_pos hr, if_pos ⟨hx, hr⟩]
          rfl
        · rw [if_neg hr, if_neg (fun h => hr h.2)]
          cases D.get? x <;> simp
      · rw [if_neg hx, if_neg (fun h => hx h.1), List.filter_cons_of_neg (by simp [hx])]

/-- **C32, every file.** The pages kept for an index are exactly its pages from the last one on that is numbered as a root, in file order. -/
theorem C32_exact (sp : SysHeader) (images : List Bytes) (h : ∀ d ∈ images, d.length = pageSize) (x : Nat) :
    ∃ D, collectPages sp (images.map rawPage) [] = some D ∧ D.get? x = (fromLastRoot sp x images).map (·.map entryOf) := by
  refine ⟨_, collectPages_eq sp _ h [], ?_⟩
  rw [keepPages_exact]
  cases fromLastRoot sp x images <;> rfl

/-- **C32, exactly when it holds.** All pages of an index are kept if and only if its first page in the file is numbered as a root and no
other of its pages is. -/
theorem C32_iff (sp : SysHeader) (images : List Bytes) (h : ∀ d ∈ images, d.length = pageSize) (x : Nat) :
    (∃ D, collectPages sp (images.map rawPage) [] = some D ∧
      D.get? x = some ((images.filter fun d => field d PAGE_INDEX_ID == x).map entryOf)) ↔
    ∃ d ds, (images.filter fun d => field d PAGE_INDEX_ID == x) = d :: ds ∧ pageNumber d ∈ roots sp ∧ ∀ y ∈ ds, pageNumber y ∉ roots sp := by
  have key : ∀ l, fromLastRoot sp x images = some l → (l = (images.filter fun d => field d PAGE_INDEX_ID == x) ↔
      ∃ d ds, (images.filter fun d => field d PAGE_INDEX_ID == x) = d :: ds ∧ pageNumber d ∈ roots sp ∧ ∀ y ∈ ds, pageNumber y ∉ roots sp) := by
    clear h
    induction images with
    | nil => intro l hl; cases hl
    | cons d images ih =>
      intro l hl
      rw [fromLastRoot] at hl
      cases hr : fromLastRoot sp x images with
      | none =>
        rw [hr] at hl
        dsimp only at hl
        split at hl
        · rename_i hd
          injection hl with hl
          rw [List.filter_cons_of_pos (by simp [hd.1]), ← hl]
          refine ⟨fun _ => ⟨d, _, rfl, hd.2, fun y hy => ?_⟩, fun _ => rfl⟩
          obtain ⟨h1, h2⟩ := List.mem_filter.mp hy
          exact fromLastRoot_none hr y h1 (by simpa using h2)
        · cases hl
      | some l' =>
        rw [hr] at hl
        injection hl with hl
        subst hl
        have hmem : ∀ l, fromLastRoot sp x images = some l → (∃ y ∈ images, field y PAGE_INDEX_ID = x ∧ pageNumber y ∈ roots sp) ∧
            l.length ≤ (images.filter fun d => field d PAGE_INDEX_ID == x).length := by
          clear * -
          induction images with
          | nil => intro l h; cases h
          | cons d images ih =>
            intro l h
            rw [fromLastRoot] at h
            cases hr : fromLastRoot sp x images with
            | none =>
              rw [hr] at h
              dsimp only at h
              split at h
              · rename_i hd
                injection h with h
                rw [← h, List.filter_cons_of_pos (by simp [hd.1])]
                exact ⟨⟨d, by simp, hd⟩, by simp⟩
              · cases h
            | some l' =>
              rw [hr] at h
              injection h with h
              subst h
              obtain ⟨⟨y, h1, h2⟩, h3⟩ := ih l' hr
              refine ⟨⟨y, by simp [h1], h2⟩, Nat.le_trans h3 ?_⟩
              by_cases hx : field d PAGE_INDEX_ID = x
              · rw [List.filter_cons_of_pos (by simp [hx])]; simp
              · rw [List.filter_cons_of_neg (by simp [hx])]
                exact Nat.le_refl _
        obtain ⟨⟨y, h1, h2, h3⟩, h4⟩ := hmem l' hr
        by_cases hx : field d PAGE_INDEX_ID = x
        · rw [List.filter_cons_of_pos (by simp [hx])]
          constructor
          · intro he
            rw [he, List.length_cons] at h4
            omega
          · rintro ⟨d', ds, he, _, h6⟩
            injection he with _ he
            subst he
            exact absurd h3 (h6 y (List.mem_filter.mpr ⟨h1, by simp [h2]⟩))
        · rw [List.filter_cons_of_neg (by simp [hx])]
          exact ih l' hr
  obtain ⟨D, h1, h2⟩ := C32_exact sp images h x
  have hent : ∀ {l m : List Bytes}, l.map entryOf = m.map entryOf → l = m := by
    intro l m hlm
    have := congrArg (List.map DataDict.data) hlm
    rw [List.map_map, List.map_map] at this
    simpa [Function.comp_def, entryOf] using this
  have hleft : (∃ D, collectPages sp (images.map rawPage) [] = some D ∧
      D.get? x = some ((images.filter fun d => field d PAGE_INDEX_ID == x).map entryOf)) ↔
      ∃ l, fromLastRoot sp x images = some l ∧ l = images.filter fun d => field d PAGE_INDEX_ID == x := by
    constructor
    · rintro ⟨D', h3, h4⟩
      rw [h1] at h3
      injection h3 with h3
      subst h3
      rw [h2] at h4
      cases hl : fromLastRoot sp x images with
      | none => rw [hl] at h4; cases h4
      | some l =>
        rw [hl] at h4
        injection h4 with h4
        exact ⟨l, rfl, hent h4⟩
    · rintro ⟨l, h3, h4⟩
      exact ⟨D, h1, by rw [h2, h3, h4]; rfl⟩
  rw [hleft]
  constructor
  · rintro ⟨l, h3, h4⟩
    exact (key l h3).mp h4
  · intro hr
    cases hl : fromLastRoot sp x images with
    | some l => exact ⟨l, rfl, (key l hl).mpr hr⟩
    | none =>
      obtain ⟨d, ds, h3, h4, _⟩ := hr
      have : d ∈ images.filter fun d => field d PAGE_INDEX_ID == x := by rw [h3]; simp
      obtain ⟨h5, h6⟩ := List.mem_filter.mp this
      exact absurd h4 (fromLastRoot_none hl d h5 (by simpa using h6))

/-- a file with a page before its root: exactly the pages from the root on are kept -/
example : ∃ D, collectPages header8 ([bare 2 1, bare 8 1, bare 20 2, bare 21 1].map rawPage) [] = some D ∧
    D.get? 1 = some ([bare 8 1, bare 21 1].map entryOf) := by
  have hi : ∀ n i, i < 2 ^ 64 → field (bare n i) PAGE_INDEX_ID = i := bare_index
  have hn : ∀ n i, n < 2 ^ 32 → pageNumber (bare n i) = n := bare_number
  obtain ⟨D, h1, h2⟩ := C32_exact header8 [bare 2 1, bare 8 1, bare 20 2, bare 21 1] (bares_length [(2, 1), (8, 1), (20, 2), (21, 1)]) 1
  refine ⟨D, h1, h2.trans ?_⟩
  simp only [fromLastRoot, hi 2 1 (by decide), hi 8 1 (by decide), hi 20 2 (by decide), hi 21 1 (by decide), hn 2 1 (by decide), hn 8 1 (by decide),
    hn 20 2 (by decide), hn 21 1 (by decide), List.filter_cons, List.filter_nil]
  simp [roots, header8]

end Verif.Props
