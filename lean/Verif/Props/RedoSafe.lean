import Verif.Props.RedoEffectIff
/-!
# C112: what the statements of the redo command do to tables in any state

The output is executed on the tables as they are by then: rows may have been inserted and deleted, and columns changed, since the log was written.
-/

namespace Verif.Props
open Verif Spec

/-- the change is one of columns of the table outside its primary key -/
structure Ordinary (cols : Bytes → Bytes → List Column) (pk : Bytes → Bytes → List Bytes) (ch : Change) : Prop where
  key : ch.key.map (·.1) = pk ch.db ch.table
  columns : ∀ s ∈ ch.sets, s.1 ∈ (cols ch.db ch.table).map (·.name) ∧ s.1 ∉ pk ch.db ch.table

/-- The tables `T'` are the tables `T` except that columns that one of the changes changed, in the row with its key, hold the old value of such a change. -/
def OnlyUndone (ff : FloatFmt) (chs : List Change) (T T' : Tables) : Prop :=
  ∀ db t, All2 (fun r r' : NamedRow => ∀ n, r' n = r n ∨
    ∃ ch ∈ chs, ch.db = db ∧ ch.table = t ∧ hasAll (ch.keys ff) r = true ∧ (n, r' n) ∈ ch.olds ff) (T db t) (T' db t)

/-- **C112**, as stated: executed on any tables, the output makes no other changes than to give columns of rows that the log has updates of an old value
from the log. -/
def C112_statement : Prop :=
  ∀ (env : Env) (fs : Bytes → File) (a : FromRedo) (spare : Nat) (sys : Bytes) (trs : List TableRow) (crs : List ColumnRow)
    (irs : List IndexRow) (frs : List FieldRow) (names : List Bytes) (parts : List (List Bytes)) (its : List Item) (chs : List (Option Change))
    (sv : Server) (cols : Bytes → Bytes → List Column) (pk : Bytes → Bytes → List Bytes) (T T' : Tables) (lines : List Bytes),
    a.sysFile = .ok sys → Dictionary sys trs crs irs frs → names ≠ [] → (∀ n ∈ names, 44 ∉ n) → a.redoFile = commaList names →
    All2 (fun chunks n => ∃ content, fs n = .ok content ∧ IsLogFile chunks content) parts names →
    parts.flatten.flatten = its.flatMap Item.enc → (∀ it ∈ its, it.Fits) →
    All2 (Logs env.zone trs crs irs frs) its chs → SameColumns trs crs cols → (∀ ch, some ch ∈ chs → ReadsChange sv env.ff ch) →
    (∀ ch, some ch ∈ chs → Wanted a ch = true → Ordinary cols pk ch) →
    fromRedoFile env fs a spare [] = .ok () lines → execUpdates sv cols (stdout lines) T = some T' →
    OnlyUndone env.ff ((chs.filterMap id).filter (Wanted a)) T T'

/-! ### Lemmas -/

theorem setAll_mem {ss : List (Bytes × Orig)} (r : NamedRow) {n : Bytes} (h : n ∈ ss.map (·.1)) : (n, setAll ss r n) ∈ ss := by
  induction ss generalizing r with
  | nil => cases h
  | cons s ss ih =>
    rw [setAll]
    by_cases hn : n ∈ ss.map (·.1)
    · exact List.mem_cons_of_mem _ (ih _ hn)
    · rw [setAll_other _ hn]
      have e : n = s.1 := by
        rw [List.map_cons, List.mem_cons] at h
        exact h.resolve_right hn
      rw [if_pos e, e]
      exact List.mem_cons_self

theorem all2_map_self {α β : Type} {P : α → β → Prop} {f : α → β} {l : List α} (h : ∀ a ∈ l, P a (f a)) : All2 P l (l.map f) := by
  induction l with
  | nil => exact .nil
  | cons a l ih => exact .cons (h a List.mem_cons_self) (ih fun x hx => h x (List.mem_cons_of_mem _ hx))

/-- each column of each row, after the statements -/
def LastUndone (ff : FloatFmt) (chs : List Change) (T T' : Tables) : Prop :=
  ∀ db t, All2 (fun r r' : NamedRow => ∀ n, ((∀ c ∈ chs, ¬ Touches ff db t r n c) → r' n = r n) ∧
    ∀ cs d ds, chs = cs ++ d :: ds → Touches ff db t r n d → (∀ c ∈ ds, ¬ Touches ff db t r n c) → (n, r' n) ∈ d.olds ff) (T db t) (T' db t)

theorem fold_last_undone {pk : Bytes → Bytes → List Bytes} {ff : FloatFmt} {chs : List Change} (hk : ∀ c ∈ chs, Keeping pk c) (T : Tables) :
    LastUndone ff chs T (chs.foldl (fun S ch => ch.undo ff S) T) := by
  intro db t
  rw [undo_rows]
  refine all2_map_self fun r _ n => ⟨fold_untouched hk r n, ?_⟩
  rintro cs d ds rfl hd hds
  rw [fold_last hk r n hd hds]
  exact setAll_mem r (by rw [olds_names]; exact hd.2.2)

theorem only_of_last {ff : FloatFmt} {chs : List Change} {T T' : Tables} (h : LastUndone ff chs T T') : OnlyUndone ff chs T T' := by
  intro db t
  refine all2_imp (fun r r' hr n => ?_) (h db t)
  by_cases ht : ∃ c ∈ chs, Touches ff db t r n c
  · obtain ⟨cs, d, ds, e, hd, hds⟩ := last_split _ _ ht
    exact .inr ⟨d, by rw [e]; simp, hd.1.1.symm, hd.1.2.symm, hd.2.1, (hr n).2 cs d ds e hd hds⟩
  · exact .inl ((hr n).1 fun c hc hh => ht ⟨c, hc, hh⟩)

/-- statements executed again make no difference -/
theorem fold_again {pk : Bytes → Bytes → List Bytes} {ff : FloatFmt} {chs : List Change} (hk : ∀ c ∈ chs, Keeping pk c) (T : Tables) :
    chs.foldl (fun S ch => ch.undo ff S) (chs.foldl (fun S ch => ch.undo ff S) T) = chs.foldl (fun S ch => ch.undo ff S) T := by
  funext db t
  rw [undo_rows, undo_rows, List.map_map]
  refine List.map_congr_left fun r _ => funext fun n => ?_
  rw [Function.comp_apply]
  by_cases ht : ∃ c ∈ chs, Touches ff db t r n c
  · obtain ⟨cs, d, ds, rfl, hd, hds⟩ := last_split _ _ ht
    have kd : Keeping pk d := hk d (by simp)
    rw [fold_last hk _ n ((fold_touches hk kd r n).mpr hd) fun c hc => by rw [fold_touches hk (hk c (by simp [hc]))]; exact hds c hc,
      fold_last hk r n hd hds]
    exact setAll_set _ _ (by rw [olds_names]; exact hd.2.2)
  · exact fold_untouched hk _ n fun c hc => by rw [fold_touches hk (hk c hc)]; exact fun hh => ht ⟨c, hc, hh⟩

/-- **C112, in part:** true of the logs of C58.  The output can be executed on any tables.  Each column of a row that was changed gets the old value
of the last change in the log, the others remain, and no rows come or go.  Executing the output again changes nothing.  (Missing: what C58 misses.) -/
theorem C112_any_state_partial (env : Env) (fs : Bytes → File) (a : FromRedo) (spare : Nat) (sys : Bytes) (trs : List TableRow) (crs : List ColumnRow)
    (irs : List IndexRow) (frs : List FieldRow) (names : List Bytes) (parts : List (List Bytes)) (its : List Item) (chs : List (Option Change))
    (sv : Server) (cols : Bytes → Bytes → List Column) (pk : Bytes → Bytes → List Bytes)
    (hsys : a.sysFile = .ok sys) (hdict : Dictionary sys trs crs irs frs) (hne : names ≠ []) (hn : ∀ n ∈ names, 44 ∉ n)
    (ha : a.redoFile = commaList names) (hp : All2 (fun chunks n => ∃ content, fs n = .ok content ∧ IsLogFile chunks content) parts names)
    (hs : parts.flatten.flatten = its.flatMap Item.enc) (hf : ∀ it ∈ its, it.Fits)
    (harr : ∀ t ∈ trs, UsualKeys irs frs crs t.id) (hfl : All2 (Followed env a trs crs irs frs) its chs)
    (hplain : ∀ ch, some ch ∈ chs → Wanted a ch = true → Plainly env.ff ch)
    (hah : Ahead its) (hlen : (its.flatMap Item.enc).length < 2 ^ 32)
    (hcols : SameColumns trs crs cols) (hreads : ∀ ch, some ch ∈ chs → ReadsChange sv env.ff ch)
    (hord : ∀ ch, some ch ∈ chs → Wanted a ch = true → Ordinary cols pk ch) :
    ∃ lines, fromRedoFile env fs a spare [] = .ok () lines ∧ ∀ T, ∃ T', execUpdates sv cols (stdout lines) T = some T' ∧
      OnlyUndone env.ff ((chs.filterMap id).filter (Wanted a)) T T' ∧ LastUndone env.ff ((chs.filterMap id).filter (Wanted a)) T T' ∧
      execUpdates sv cols (stdout lines) T' = some T' := by
  obtain ⟨lines, h1, h2⟩ := C58_command_partial env fs a spare sys trs crs irs frs names parts its chs hsys hdict hne hn ha hp hs hf harr hfl hplain hah hlen []
  have hm : ∀ ch ∈ (chs.filterMap id).filter (Wanted a), some ch ∈ chs ∧ Wanted a ch = true := by
    intro ch hch
    obtain ⟨hch, hw⟩ := List.mem_filter.mp hch
    obtain ⟨x, hx, rfl⟩ := List.mem_filterMap.mp hch
    exact ⟨hx, hw⟩
  have ho : ∀ ch ∈ (chs.filterMap id).filter (Wanted a), Ordinary cols pk ch := fun ch hch => hord ch (hm ch hch).1 (hm ch hch).2
  have ht : ∀ ch ∈ (chs.filterMap id).filter (Wanted a), TypedChange cols ch := by
    intro ch hch
    obtain ⟨it, _, hit⟩ := all2_exists_left hfl (some ch) (hm ch hch).1
    exact followed_typed hcols hit fun s hs => ((ho ch hch).columns s hs).1
  have hk : ∀ ch ∈ (chs.filterMap id).filter (Wanted a), Keeping pk ch := fun ch hch => ⟨(ho ch hch).key, fun s hs => ((ho ch hch).columns s hs).2⟩
  have he := exec_lines h2 ht fun ch hch => hreads ch (hm ch hch).1
  exact ⟨lines, by simpa using h1, fun T => ⟨_, he T, only_of_last (fold_last_undone hk T), fold_last_undone hk T, by rw [he, fold_again hk]⟩⟩

/-! ### A log -/

theorem shopChange2_ordinary (k : Int) (name : Bytes) : Ordinary shopCols (fun _ _ => [b! "id"]) (shopChange2 k name) where
  key := rfl
  columns := by
    intro s hs
    cases List.mem_singleton.mp hs
    exact ⟨by show b! "name" ∈ (columnsOf shopColumns 20).map (·.name); decide, by show b! "name" ∉ [b! "id"]; decide⟩

/-- the hypotheses of `C112_any_state_partial` -/
example (env : Env) (spare : Nat) (sv : Server) : ∃ lines, fromRedoFile env (shopDisk2 8) shopRedo2 spare [] = .ok () lines ∧
    ∀ T, ∃ T', execUpdates sv shopCols (stdout lines) T = some T' ∧
      OnlyUndone env.ff [shopChange2 7 (b! "bob"), shopChange2 8 (b! "eve")] T T' ∧
      LastUndone env.ff [shopChange2 7 (b! "bob"), shopChange2 8 (b! "eve")] T T' ∧ execUpdates sv shopCols (stdout lines) T' = some T' :=
  C112_any_state_partial env (shopDisk2 8) shopRedo2 spare (shopFile idKey) shopTables shopColumns (shopIndexes idKey) (shopFields idKey) [b! "ib_logfile0"]
    [[(shopLog2 8).flatMap Item.enc]] (shopLog2 8) (shopChanges2 8) sv shopCols (fun _ _ => [b! "id"]) rfl (shop_dictionary (.inl rfl)) (by decide)
    (by decide) rfl (shop2_disk (.inr rfl)) (by simp) (shop2_fits (.inr rfl)) shop_arranged (shop2_followed env (.inr rfl))
    (fun ch hch _ => by
      rcases shop2_mem hch with rfl | rfl
      · exact shopChange2_plainly env (.inl rfl) (.inl rfl)
      · exact shopChange2_plainly env (.inr rfl) (.inr rfl))
    (shop2_ahead (.inr rfl)) (by have := shop2_length (.inr rfl : SevenEight 8); omega) shop2_cols (shop2_reads sv env.ff 8)
    (fun ch hch _ => by rcases shop2_mem hch with rfl | rfl <;> exact shopChange2_ordinary _ _)

/-! ### A value that is more than a value -/

/-- the old name of row 7 -/
def sneakName : Bytes := b! "x',`id`='9"

def sneakLog : List Item :=
  [.record false 5 3 (.bytes2 120 77), .record true 0 300 (.undoInsert (shopUpdate 7 sneakName 3)), .record true 5 3 (.bytes2 120 77)]

def sneakDisk (_ : Bytes) : File := .ok (logFile (sneakLog.flatMap Item.enc))

set_option maxRecDepth 4000 in
theorem sneak_length : (sneakLog.flatMap Item.enc).length ≤ 300 := by decide

theorem sneak_fits : ∀ it ∈ sneakLog, it.Fits := by
  intro it hit
  simp only [sneakLog, List.mem_cons, List.not_mem_nil, or_false] at hit
  rcases hit with rfl | rfl | rfl
  · exact ⟨by decide, by decide, by show 77 < 2 ^ 32; decide⟩
  · refine ⟨by decide, by decide, by show 12 ∈ _; decide, by show 1 < 16; decide, by show 3 < 2 ^ 64; decide, by show 20 < 2 ^ 64; decide,
      by show 2 ^ 33 < 2 ^ 64; decide, by show 2 ^ 50 < 2 ^ 64; decide, ?_, ?_⟩
    · intro f hf
      cases List.mem_singleton.mp hf
      refine ⟨by show 3 < 2 ^ 32; decide, ?_⟩
      rintro v ⟨⟩
      decide
    · decide
  · exact ⟨by decide, by decide, by show 77 < 2 ^ 32; decide⟩

theorem sneak_followed (env : Env) : All2 (Followed env shopRedo2 shopTables shopColumns (shopIndexes idKey) (shopFields idKey)) sneakLog
    [none, some (shopChange2 7 sneakName), none] :=
  .cons (.other nofun fun _ => trivial) (.cons (shopUpdate_followed env (.inl rfl) _ (by decide)) (.cons (.other nofun fun _ => trivial) .nil))

set_option maxRecDepth 4000 in
theorem sneak_ahead : Ahead sneakLog := ⟨by decide, by decide, by decide, trivial⟩

/-- **C112 is false of the code:** an old value with a quote can set another column, here the key. -/
theorem C112_false : ¬ C112_statement := by
  intro h
  have hd : All2 (fun chunks n => ∃ content, sneakDisk n = .ok content ∧ IsLogFile chunks content) [[sneakLog.flatMap Item.enc]] [b! "ib_logfile0"] :=
    .cons ⟨_, rfl, logFile_is _ (by have := sneak_length; omega)⟩ .nil
  have h0 := C58_lines testEnv sneakDisk shopRedo2 0 (shopFile idKey) shopTables shopColumns (shopIndexes idKey) (shopFields idKey) [b! "ib_logfile0"]
    [[sneakLog.flatMap Item.enc]] sneakLog _ rfl (shop_dictionary (.inl rfl)) (by decide) (by decide) rfl hd (by simp) sneak_fits shop_arranged
    (sneak_followed testEnv) sneak_ahead (by have := sneak_length; omega) []
  have h0 : fromRedoFile testEnv sneakDisk shopRedo2 0 [] = .ok () [b! "update `shop`.`t` set `name`='x',`id`='9' where `id`='7';"] := h0
  have hr : readUpdates (stdout [b! "update `shop`.`t` set `name`='x',`id`='9' where `id`='7';"]) =
      some [⟨b! "shop", b! "t", [(b! "name", [.str (b! "x")]), (b! "id", [.str (b! "9")])], [(b! "id", [.str (b! "7")])]⟩] := by decide
  have e : execUpdates anyServer shopCols (stdout [b! "update `shop`.`t` set `name`='x',`id`='9' where `id`='7';"]) (shopState [shopRow 7 (b! "zoe")]) =
      some (updateRows (b! "shop") (b! "t") [(b! "id", .int 7)] [(b! "name", .text (b! "x")), (b! "id", .int 9)] (shopState [shopRow 7 (b! "zoe")])) := by
    unfold execUpdates
    rw [hr]
    rfl
  have := h testEnv sneakDisk shopRedo2 0 (shopFile idKey) shopTables shopColumns (shopIndexes idKey) (shopFields idKey) [b! "ib_logfile0"]
    [[sneakLog.flatMap Item.enc]] sneakLog _ anyServer shopCols (fun _ _ => [b! "id"]) _ _ _ rfl (shop_dictionary (.inl rfl)) (by decide) (by decide) rfl hd
    (by simp) sneak_fits (all2_imp (fun _ _ => followed_logs) (sneak_followed testEnv)) shop2_cols
    (by
      intro ch hch
      have : ch = shopChange2 7 sneakName := by simpa using hch
      subst this
      exact ⟨fun s hs => by cases List.mem_singleton.mp hs; trivial, fun s hs => by cases List.mem_singleton.mp hs; trivial⟩)
    (by
      intro ch hch _
      have : ch = shopChange2 7 sneakName := by simpa using hch
      subst this
      exact shopChange2_ordinary _ _) h0 e (b! "shop") (b! "t")
  cases this with
  | cons h1 _ =>
    rcases h1 (b! "id") with h1 | ⟨ch, hch, _, _, _, h1⟩
    · have h1 : Orig.int 9 = .int 7 := h1
      cases h1
    · have hch : ch ∈ [shopChange2 7 sneakName] := hch
      cases List.mem_singleton.mp hch
      have h1 := List.mem_map_of_mem (f := (·.1)) h1
      have h1 : b! "id" ∈ [b! "name"] := h1
      revert h1
      decide

end Verif.Props
