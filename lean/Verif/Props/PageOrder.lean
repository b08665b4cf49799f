import Verif.Props.BadPage
import Verif.Props.OtherPages
/-!
# C85: the order of the pages in a data file
-/

namespace Verif.Props
open Verif Spec

/-- the pages of a file made of whole pages with different numbers -/
structure Pages (ps : List Bytes) : Prop where
  whole : ∀ p ∈ ps, p.length = 16384
  numbers : (ps.map pageNumber).Nodup

theorem Pages.perm {ps ps' : List Bytes} (h : Pages ps) (hp : ps.Perm ps') : Pages ps' :=
  ⟨fun p hm => h.whole p (hp.mem_iff.mpr hm), (hp.map pageNumber).nodup_iff.mp h.numbers⟩

/-- what has been printed when a run ends, in whatever way -/
def printedBy (r : R IState (Option Bytes)) : Out := r.st.out

/-- The full claim of C85. -/
def C85_statement : Prop :=
  ∀ (env : Env) (ps ps' : List Bytes) (db name : Bytes) (recovery : Bool) (s : IState), Pages ps → ps.Perm ps' →
    (printedBy (parseDataPage env (.ok ps.flatten) db name recovery s)).Perm
      (printedBy (parseDataPage env (.ok ps'.flatten) db name recovery s))

theorem selected_perm {ps ps' : List Bytes} (h : Pages ps) (hp : ps.Perm ps') (recovery : Bool) :
    (selectedPages ps.flatten recovery).Perm (selectedPages ps'.flatten recovery) := by
  unfold selectedPages
  rw [images_flatten ps h.whole h.numbers, images_flatten ps' (h.perm hp).whole (h.perm hp).numbers]
  exact hp.filter _

/-- **C85, whether a run succeeds** does not depend on the order of the pages. -/
theorem C85_success (env : Env) (ps ps' : List Bytes) (db name : Bytes) (recovery : Bool) (s : IState) (h : Pages ps) (hp : ps.Perm ps') :
    (∃ e s', parseDataPage env (.ok ps.flatten) db name recovery s = .ok e s') ↔
      ∃ e s', parseDataPage env (.ok ps'.flatten) db name recovery s = .ok e s' := by
  rw [C27_success_iff, C27_success_iff]
  constructor <;> intro hh d hd
  · exact hh d ((selected_perm h hp recovery).mem_iff.mpr hd)
  · exact hh d ((selected_perm h hp recovery).mem_iff.mp hd)

/-- **C85**, in part: if every page to be decoded is sound (see C27), another order of the pages gives the same statements in another
order.  Missing: files with a page that cannot be decoded, which ends the run (`C85_false`), with columns outside the page, or with
NULLs in binary columns, for which what is printed depends on the row before (see C25). -/
theorem C85_sound_partial (env : Env) (ps ps' : List Bytes) (db name : Bytes) (recovery : Bool) (s : IState) (h : Pages ps)
    (hp : ps.Perm ps') (hs : ∀ d ∈ ps, Selected recovery d → Sound env s.tables db name recovery d) :
    ∃ t t' lines lines', parseDataPage env (.ok ps.flatten) db name recovery s = .ok none t ∧ t.out = s.out ++ lines ∧
      parseDataPage env (.ok ps'.flatten) db name recovery s = .ok none t' ∧ t'.out = s.out ++ lines' ∧ lines.Perm lines' := by
  have hsel : ∀ d ∈ selectedPages ps.flatten recovery, Sound env s.tables db name recovery d := by
    intro d hd
    unfold selectedPages at hd
    rw [images_flatten ps h.whole h.numbers, List.mem_filter, decide_eq_true_eq] at hd
    exact hs d hd.1 hd.2
  have hpm := selected_perm h hp recovery
  obtain ⟨t, h1, h2⟩ := C27_sound_files_partial env ps.flatten db name recovery s hsel
  obtain ⟨t', h3, h4⟩ := C27_sound_files_partial env ps'.flatten db name recovery s fun d hd => hsel d (hpm.mem_iff.mpr hd)
  exact ⟨t, t', _, _, h1, h2, h3, h4, hpm.flatMap_right _⟩

/-- The same for the whole command: the statements for a file with its pages in another order are those for the file. -/
theorem C85_command_partial (env : Env) (a : FromData) (ps ps' : List Bytes) (out : Out) (s : DState) (h : Pages ps) (hp : ps.Perm ps')
    (hd : parseDictPage env a.sysFile { out := out } = .ok none s)
    (hs : ∀ d ∈ ps, Selected (Recovering a) d → Sound env s.tables a.db a.table (Recovering a) d) :
    ∃ lines lines', runOn env a ps.flatten out = .ok () (s.out ++ lines) ∧ runOn env a ps'.flatten out = .ok () (s.out ++ lines') ∧
      lines.Perm lines' := by
  obtain ⟨t, t', lines, lines', h1, h2, h3, h4, h5⟩ := C85_sound_partial env ps ps' a.db a.table (Recovering a) ⟨s.tables, s.out⟩ h hp hs
  refine ⟨lines, lines', ?_, ?_, h5⟩ <;> unfold runOn fromDataFile <;> dsimp only <;> rw [hd] <;> dsimp only
  · unfold Recovering at h1
    rw [h1]
    dsimp only
    rw [h2]
  · unfold Recovering at h3
    rw [h3]
    dsimp only
    rw [h4]

theorem two_bad_pages : Pages [twoPage (65536 - 88), badPage] := by
  constructor
  · intro p hp
    simp only [List.mem_cons, List.not_mem_nil, or_false] at hp
    rcases hp with rfl | rfl
    · exact twoPage_length _
    · exact badPage_length
  · simp [twoPage_number, badPage_number]

/-- the statements of a sound page are lost when it comes behind a page that cannot be decoded -/
theorem C85_false : ¬ C85_statement := by
  intro h
  have h1 := h testEnv [twoPage (65536 - 88), badPage] [badPage, twoPage (65536 - 88)] (b! "d") (b! "t") false ⟨twoTables, []⟩
    two_bad_pages (List.Perm.swap _ _ _)
  have hq := two_bad_pages.perm (List.Perm.swap _ _ _)
  obtain ⟨t, e1, e2⟩ := C27_bad_first_page testEnv [twoPage (65536 - 88)] (by
    intro p hp; cases List.mem_singleton.mp hp; exact twoPage_length _) hq.numbers (b! "d") (b! "t") ⟨twoTables, []⟩
  have hsel : selectedPages [twoPage (65536 - 88), badPage].flatten false = [twoPage (65536 - 88)] ++ badPage :: [] := by
    unfold selectedPages
    rw [images_flatten _ two_bad_pages.whole two_bad_pages.numbers,
      List.filter_cons_of_pos (by rw [decide_eq_true_eq]; exact two_selected false _),
      List.filter_cons_of_pos (by rw [decide_eq_true_eq]; exact badPage_selected), List.filter_nil]
    rfl
  obtain ⟨t', e3, e4⟩ := (C27_bad_page testEnv _ (b! "d") (b! "t") false ⟨twoTables, []⟩ _ _ _ hsel (by
    simp only [List.mem_singleton, forall_eq]; exact two_sound) _).1
      (bad_panics testEnv twoTables badPage _ badPage_length badPage_old badPage_link _)
  obtain ⟨rows, u, h3, _, h4⟩ := two_decode _ _
  unfold printedBy at h1
  rw [e1, e3] at h1
  have h1 : t'.out.Perm t.out := h1
  rw [e2, e4, List.flatMap_singleton, List.append_nil, List.nil_append] at h1
  have h5 : pageOutput testEnv twoTables (b! "d") (b! "t") false (twoPage (65536 - 88)) = [] := List.perm_nil.mp h1
  unfold pageOutput at h5
  rw [show pageAlone testEnv twoTables (b! "d") (b! "t") false (twoPage (65536 - 88)) = _ from two_alone.trans h3] at h5
  have h5 := h4.symm.trans h5
  exact absurd h5 (by decide)

end Verif.Props
