import Verif.Props.WalkExact
import Verif.Props.BadPage
/-!
# C27: free lists that begin too close to the beginning of the page
-/

namespace Verif.Props
open Verif Spec

/-- the header of a record that does not fit between the beginning of the page and its origin -/
theorem low_offsets (d : Bytes) (o : Nat) (offsets : List Nat) (table : Table) (h : o < 6 + (table.nullCount + 7) / 8) :
    ibRecInitOffsetsNew d o offsets table = none := by
  unfold ibRecInitOffsetsNew
  cases h1 : setIdx offsets 2 0 with
  | none => rfl
  | some x =>
    simp only [Option.bind_eq_bind, Option.bind_some]
    cases h2 : setIdx x 1 table.columns.length with
    | none => rfl
    | some y =>
      simp only [Option.bind_some]
      by_cases h3 : 6 ≤ o ∧ o ≤ d.length
      · rw [if_pos h3, if_neg (by omega)]
        rfl
      · rw [if_neg h3]
        rfl

/-- **C27, deleted rows:** if the header of the first record in the free list of a COMPACT page would begin in front of the page, the program
aborts: exactly the statements of the pages before it are printed, and the pages behind it are not read. -/
theorem C27_low_record (env : Env) (content db name : Bytes) (s : IState) (pre post : List Bytes) (d : Bytes) (c : Column) (table : Table)
    (hsel : selectedPages content true = pre ++ d :: post) (hpre : ∀ p ∈ pre, Sound env s.tables db name true p) (hc : isCompact d = true)
    (hcol : (getTableColumnsFromDict s.tables db name)[0]? = some c) (ht : s.tables.get? c.tableId = some table)
    (hlow : field d PAGE_FREE < 6 + (table.nullCount + 7) / 8) (hsup : field d PAGE_FREE < 112) :
    ∃ s', parseDataPage env (.ok content) db name true s = .panic s' ∧
      s'.out = s.out ++ pre.flatMap (pageOutput env s.tables db name true) := by
  have hd : d.length = 16384 := selectedPages_length (content := content) (recovery := true) (by rw [hsel]; simp)
  have hp : pageAlone env s.tables db name true d = .panic ⟨getTableColumnsFromDict s.tables db name, []⟩ := by
    unfold pageAlone
    rw [parsePage_startOf env s.tables d true _ _ hd, hc, show startOf d true (field d PAGE_FREE) = field d PAGE_FREE from rfl]
    generalize hf : field d PAGE_FREE = f at hlow hsup
    have hone : parseOne env s.tables d true f ⟨getTableColumnsFromDict s.tables db name, []⟩ =
        .panic ⟨getTableColumnsFromDict s.tables db name, []⟩ := by
      have hr : recOffsets s.tables d true f (getTableColumnsFromDict s.tables db name) = none := by
        unfold recOffsets sliceFrom
        simp only [Option.bind_eq_bind]
        rw [if_pos (by omega), Option.bind_some, if_pos trivial, hcol, Option.bind_some, ht]
        dsimp only
        rw [low_offsets d f _ table hlow]
        rfl
      unfold parseOne
      rw [GoM.get_bind, hr]
      rfl
    show walk env s.tables d true (16383 + 1) f [] _ = _
    unfold walk
    rw [if_pos ⟨by omega, by show f ≠ 112; omega⟩, GoM.bind_run, hone]
  obtain ⟨s', h1, h2⟩ := (C27_bad_page env content db name true s pre post d hsel hpre _).1 hp
  exact ⟨s', h1, by rw [h2, List.append_nil]⟩

/-- a COMPACT page whose free list begins at 6, where the header of a record with nullable columns does not fit -/
def lowPage : Bytes := poke (poke blank 24 [0x45, 0xBF]) 42 [0x80, 0, 0, 6, 0, 1]

theorem lowPage_length : lowPage.length = 16384 := by
  unfold lowPage
  rw [poke_length _ _ _ (by rw [bad_len1]; decide), bad_len1]

theorem lowPage_zero (o n : Nat) (h : o + n ≤ 24 ∨ 48 ≤ o ∧ o + n ≤ 16384) : sub lowPage o n = List.replicate n 0 := by
  unfold lowPage
  rcases h with h | h
  · rw [sub_poke_before _ _ _ _ _ (by omega) (by rw [bad_len1]; decide), sub_poke_before _ _ _ _ _ (by omega) (by rw [blank_length]; decide),
      sub_blank _ _ (by omega)]
  · rw [sub_poke_after _ _ _ _ _ (by simpa using h.1) (by rw [bad_len1]; decide),
      sub_poke_after _ _ _ _ _ (by simp; omega) (by rw [blank_length]; decide), sub_blank _ _ (by omega)]

theorem lowPage_at (i n : Nat) (h : i + n ≤ 6) : sub lowPage (42 + i) n = sub [0x80, 0, 0, 6, 0, 1] i n := by
  unfold lowPage
  exact sub_poke_in _ _ _ (by rw [bad_len1]; decide) _ _ h

theorem lowPage_free : field lowPage PAGE_FREE = 6 := by
  show numAt lowPage (42 + 2) 2 = 6
  rw [numAt_sub, lowPage_at 2 2 (by decide)]
  decide

theorem lowPage_selected : Selected true lowPage := by
  refine ⟨?_, ?_, ?_, fun _ => ⟨by rw [lowPage_free]; decide, by rw [lowPage_free]; decide, ?_⟩⟩
  · show numAt lowPage 24 2 = 17855
    rw [numAt_sub]
    unfold lowPage
    rw [sub_poke_before _ _ _ _ _ (by decide) (by rw [bad_len1]; decide), sub_poke _ _ _ (by rw [blank_length]; decide) 2 rfl]
    decide
  · show numAt lowPage (38 + 26) 2 = 0
    rw [numAt_sub, lowPage_zero _ _ (by decide)]; decide
  · show numAt lowPage (38 + 18) 8 = 0
    rw [numAt_sub, lowPage_zero _ _ (by decide)]; decide
  · show numAt lowPage (42 + 4) 2 ≠ 0
    rw [numAt_sub, lowPage_at 4 2 (by decide)]
    decide

/-- the hypotheses of `C27_low_record` -/
example : ∃ s', parseDataPage testEnv (.ok [lowPage].flatten) (b! "d") (b! "t") true
    ⟨[(1, { db := b! "d", name := b! "t", columns := twoCols, nullCount := 1 })], []⟩ = .panic s' ∧ s'.out = [] := by
  have hsel : selectedPages [lowPage].flatten true = [] ++ lowPage :: [] := by
    unfold selectedPages
    rw [images_flatten _ (by simp [lowPage_length]) (by simp), List.filter_cons_of_pos (by rw [decide_eq_true_eq]; exact lowPage_selected),
      List.filter_nil]
    rfl
  have hc : isCompact lowPage = true := by
    unfold isCompact
    rw [show (42 : Nat) = 42 + 0 from rfl, numAt_sub, lowPage_at 0 2 (by decide)]
    decide
  exact C27_low_record testEnv _ (b! "d") (b! "t") _ [] [] lowPage twoCols[0] { db := b! "d", name := b! "t", columns := twoCols, nullCount := 1 } hsel
    (by simp) hc (by decide) (by decide) (by rw [lowPage_free]; decide) (by rw [lowPage_free]; decide)

end Verif.Props
