import Verif.Props.Reuse
/-!
# C27: what is printed before a page that cannot be decoded
-/

namespace Verif.Props
open Verif Spec

theorem pagesRun_sound (env : Env) (tables : TableMap) (db name : Bytes) (recovery : Bool) (ds rest : List Bytes)
    (hlen : ∀ d ∈ ds, d.length = 16384) (h : ∀ d ∈ ds, Sound env tables db name recovery d) (t : PState)
    (ht : t.cols.map (skelB true) = (getTableColumnsFromDict tables db name).map (skelB true)) :
    ∃ cols, pagesRun env tables db name recovery (ds ++ rest) t =
      pagesRun env tables db name recovery rest ⟨cols, t.out ++ ds.flatMap (pageOutput env tables db name recovery)⟩ ∧
      cols.map (skelB true) = (getTableColumnsFromDict tables db name).map (skelB true) := by
  induction ds generalizing t with
  | nil => exact ⟨t.cols, by rw [List.flatMap_nil, List.append_nil]; rfl, ht⟩
  | cons d ds ih =>
    obtain ⟨cols, h1, h2⟩ := printPage_sound env tables db name recovery d (hlen d (by simp)) (h d (by simp)) t ht
    obtain ⟨cols', h3, h4⟩ := ih (fun x hx => hlen x (by simp [hx])) (fun x hx => h x (by simp [hx])) ⟨cols, _⟩ h2
    refine ⟨cols', ?_, h4⟩
    rw [List.cons_append, pagesRun_cons, GoM.bind_run, h1]
    dsimp only
    rw [h3, List.flatMap_cons, List.append_assoc]

/-- **C27, the first page that cannot be decoded.** If the selected pages before it are sound, exactly their statements are printed, then the
lines of the decoder (those of DECIMAL columns, see C37) for this page; then the program aborts or loops forever, as it does with the page
alone.  The pages behind it are not read. -/
theorem C27_bad_page (env : Env) (content db name : Bytes) (recovery : Bool) (s : IState) (pre post : List Bytes) (d : Bytes)
    (hsel : selectedPages content recovery = pre ++ d :: post) (hpre : ∀ p ∈ pre, Sound env s.tables db name recovery p) (t : PState) :
    (pageAlone env s.tables db name recovery d = .panic t → ∃ s', parseDataPage env (.ok content) db name recovery s = .panic s' ∧
      s'.out = s.out ++ pre.flatMap (pageOutput env s.tables db name recovery) ++ t.out) ∧
    (pageAlone env s.tables db name recovery d = .hang t → ∃ s', parseDataPage env (.ok content) db name recovery s = .hang s' ∧
      s'.out = s.out ++ pre.flatMap (pageOutput env s.tables db name recovery) ++ t.out) := by
  have hlen : ∀ p ∈ pre ++ d :: post, p.length = 16384 := fun p hp => selectedPages_length (by rw [hsel]; exact hp)
  obtain ⟨cols, h1, h2⟩ := pagesRun_sound env s.tables db name recovery pre (d :: post) (fun p hp => hlen p (by simp [hp])) hpre
    ⟨getTableColumnsFromDict s.tables db name, s.out⟩ rfl
  have hrel := page_in_file env s.tables db name recovery d (hlen d (by simp))
    ⟨cols, s.out ++ pre.flatMap (pageOutput env s.tables db name recovery)⟩ h2
  rw [parseDataPage_run, hsel, h1, pagesRun_cons, GoM.bind_run, printPage_full]
  dsimp only
  generalize parsePage env s.tables d recovery (field d PAGE_FREE)
    ⟨cols, s.out ++ pre.flatMap (pageOutput env s.tables db name recovery)⟩ = r at *
  constructor
  · intro hp
    rw [hp] at hrel
    cases hrel with
    | panic hst => exact ⟨_, rfl, hst.2.2⟩
  · intro hp
    rw [hp] at hrel
    cases hrel with
    | hang hst => exact ⟨_, rfl, hst.2.2⟩

theorem twoPage_number (next : Nat) : pageNumber (twoPage next) = 3 := by
  unfold pageNumber
  rw [numAt_sub]
  unfold twoPage
  rw [sub_poke_before _ _ _ _ _ (by decide) (by rw [two_len3]; decide), sub_poke_before _ _ _ _ _ (by decide) (by rw [two_len2]; decide),
    sub_poke_before _ _ _ _ _ (by decide) (by rw [two_len1]; decide)]
  unfold twoBase
  rw [sub_poke_before _ _ _ _ _ (by decide) (by rw [two_len0]; decide), show (4 : Nat) = 4 + 0 from rfl,
    sub_poke_in _ _ _ (by rw [blank_length]; decide) _ _ (by decide)]
  decide

/-- a sound page and a page that cannot be decoded: the rows of the first are printed, then the program aborts -/
example : ∃ s', parseDataPage testEnv (.ok [twoPage (65536 - 88), badPage].flatten) (b! "d") (b! "t") false ⟨twoTables, []⟩ = .panic s' ∧
    s'.out = [b! "replace into `d`.`t` values ('1');", b! "replace into `d`.`t` values ('2');"] := by
  have hlen : ∀ p ∈ [twoPage (65536 - 88), badPage], p.length = 16384 := by
    intro p hp
    simp only [List.mem_cons, List.not_mem_nil, or_false] at hp
    rcases hp with rfl | rfl
    · exact twoPage_length _
    · exact badPage_length
  have hsel : selectedPages [twoPage (65536 - 88), badPage].flatten false = [twoPage (65536 - 88)] ++ badPage :: [] := by
    unfold selectedPages
    rw [images_flatten _ hlen (by simp [twoPage_number, badPage_number]),
      List.filter_cons_of_pos (by rw [decide_eq_true_eq]; exact two_selected false _),
      List.filter_cons_of_pos (by rw [decide_eq_true_eq]; exact badPage_selected), List.filter_nil]
    rfl
  obtain ⟨s', h1, h2⟩ := (C27_bad_page testEnv _ (b! "d") (b! "t") false ⟨twoTables, []⟩ _ _ _ hsel (by
    simp only [List.mem_singleton, forall_eq]; exact two_sound) _).1
      (bad_panics testEnv twoTables badPage _ badPage_length badPage_old badPage_link _)
  refine ⟨s', h1, ?_⟩
  obtain ⟨rows, s, h3, _, h4⟩ := two_decode _ _
  rw [h2, List.flatMap_singleton, List.append_nil, List.nil_append, ← h4]
  unfold pageOutput
  rw [show pageAlone testEnv (IState.tables ⟨twoTables, []⟩) (b! "d") (b! "t") false (twoPage (65536 - 88)) = _ from two_alone.trans h3]

end Verif.Props
