import Verif.Props.RedoEffect
import Verif.Props.RedoNames

/-!
# C126: undoing the updates of one table only

The redo command is run with the names of a database and a table, so that only the updates of this table are undone.
-/

namespace Verif.Props
open Verif Spec

/-- **C126**, as stated: for the logs of C58, executing the output for one table makes of this table what executing the output for all tables makes of it, and leaves all
other tables as they are, whatever their rows. -/
def C126_statement : Prop :=
  ∀ (env : Env) (fs : Bytes → File) (a : FromRedo) (spare : Nat) (sys : Bytes) (trs : List TableRow) (crs : List ColumnRow)
    (irs : List IndexRow) (frs : List FieldRow) (names : List Bytes) (parts : List (List Bytes)) (its : List Item) (chs : List (Option Change))
    (sv : Server) (cols : Bytes → Bytes → List Column) (db name : Bytes),
    a.sysFile = .ok sys → Dictionary sys trs crs irs frs → names ≠ [] → (∀ n ∈ names, 44 ∉ n) → a.redoFile = commaList names →
    All2 (fun chunks n => ∃ content, fs n = .ok content ∧ IsLogFile chunks content) parts names →
    parts.flatten.flatten = its.flatMap Item.enc → (∀ it ∈ its, it.Fits) →
    (∀ t ∈ trs, UsualKeys irs frs crs t.id) → All2 (Followed env { a with db := [], table := [] } trs crs irs frs) its chs →
    (∀ ch, some ch ∈ chs → Plainly env.ff ch) → Ahead its → (its.flatMap Item.enc).length < 2 ^ 32 →
    SameColumns trs crs cols → (∀ ch, some ch ∈ chs → ReadsChange sv env.ff ch) →
    (∀ ch, some ch ∈ chs → ∀ s ∈ ch.sets, s.1 ∈ (cols ch.db ch.table).map (·.name)) → db ≠ [] → name ≠ [] →
    ∃ all one, fromRedoFile env fs { a with db := [], table := [] } spare [] = .ok () all ∧ fromRedoFile env fs { a with db := db, table := name } spare [] = .ok () one ∧
      ∀ T, ∃ T0 T1, execUpdates sv cols (stdout all) T = some T0 ∧ execUpdates sv cols (stdout one) T = some T1 ∧
        T1 db name = T0 db name ∧ ∀ d t, ¬ (d = db ∧ t = name) → T1 d t = T d t

/-! ## What is printed -/

/-- If a table is named, the name of the database makes no difference. -/
theorem database_ignored (env : Env) (fs : Bytes → File) (a : FromRedo) (spare : Nat) (out : Out) (db : Bytes) {name : Bytes} (hname : name ≠ []) :
    fromRedoFile env fs { a with db := db, table := name } spare out = fromRedoFile env fs { a with db := [], table := name } spare out := by
  obtain ⟨c, ls, _, h⟩ := C84_command env fs a spare out
  rw [h, h]
  congr 2
  unfold printedLines
  congr 1
  refine List.filter_congr fun l _ => ?_
  congr 1
  refine propext (forall_congr' fun t => imp_congr_right fun _ => ?_)
  unfold PrintedFor NameSelected
  constructor
  · rintro (⟨_, h | h⟩ | h)
    · exact absurd h hname
    · exact .inr ⟨hname, h⟩
    · exact .inr h
  · rintro (⟨_, h | h⟩ | h)
    · exact absurd h hname
    · exact .inr ⟨hname, h⟩
    · exact .inr h

/-- records that are followed if all tables are wanted are followed with other names -/
theorem followed_names {env : Env} {a a' : FromRedo} {trs : List TableRow} {crs : List ColumnRow} {irs : List IndexRow} {frs : List FieldRow} {it : Item}
    {och : Option Change} (h : Followed env a trs crs irs frs it och)
    (hw : ∀ ch, och = some ch → Wanted a ch = true ∧ (Wanted a' ch = false → ch.table ≠ a'.table)) : Followed env a' trs crs irs frs it och := by
  cases h with
  | other h1 h2 => exact .other h1 h2
  | unknown h1 h2 h3 => exact .unknown h1 h2 h3
  | notUpdate h1 h2 h3 h4 h5 h6 h7 h8 h9 h10 h11 => exact .notUpdate h1 h2 h3 h4 h5 h6 h7 h8 h9 h10 h11
  | update h1 h2 h3 h4 h5 h6 h7 h8 h9 h10 h11 h12 h13 h14 h15 =>
    exact .update h1 h2 h3 h4 h5 h6 h7 h8 h9 h10 h11 h12 h13 (hw _ rfl).2 fun _ => h15 (hw _ rfl).1

/-! ## Executing -/

theorem ok_lines {x y : Out} (h : (R.ok () x : R Out Unit) = .ok () ([] ++ y)) : y = x := by
  injection h with _ h
  simpa using h.symm

theorem undo_local (ff : FloatFmt) (ch : Change) {S T : Tables} {d t : Bytes} (h : S d t = T d t) : ch.undo ff S d t = ch.undo ff T d t := by
  unfold Change.undo updateRows
  rw [h]

theorem undo_elsewhere (ff : FloatFmt) (ch : Change) (S : Tables) {d t : Bytes} (h : ch.table ≠ t) : ch.undo ff S d t = S d t := by
  unfold Change.undo updateRows
  rw [if_neg fun e => h e.2.symm]

/-- the changes of the tables with this name -/
theorem undo_named (ff : FloatFmt) (cs : List Change) (name : Bytes) (S T : Tables) (d t : Bytes) (h : S d t = T d t) :
    (cs.filter fun c => c.table == name).foldl (fun S c => c.undo ff S) S d t =
      if t = name then cs.foldl (fun S c => c.undo ff S) T d t else S d t := by
  induction cs generalizing S T with
  | nil =>
    split
    · exact h
    · rfl
  | cons c cs ih =>
    by_cases hc : c.table = name
    · rw [List.filter_cons_of_pos (by simp [hc]), List.foldl_cons, List.foldl_cons, ih _ (c.undo ff T) (undo_local ff c h)]
      split
      · rfl
      · rename_i ht
        exact undo_elsewhere ff c S fun e => ht (e.symm.trans hc)
    · rw [List.filter_cons_of_neg (by simp [hc]), List.foldl_cons]
      by_cases ht : t = name
      · rw [ih S (c.undo ff T) (by rw [undo_elsewhere ff c T fun e => hc (e.trans ht)]; exact h)]
      · rw [ih S S rfl, if_neg ht, if_neg ht]

/-- **C126, exactly:** executing the output for one table makes of the tables with its name, in every database, what executing the output for all tables makes of them,
and leaves all others as they are. -/
theorem C126_exact (env : Env) (fs : Bytes → File) (a : FromRedo) (spare : Nat) (sys : Bytes) (trs : List TableRow) (crs : List ColumnRow)
    (irs : List IndexRow) (frs : List FieldRow) (names : List Bytes) (parts : List (List Bytes)) (its : List Item) (chs : List (Option Change))
    (sv : Server) (cols : Bytes → Bytes → List Column) (db name : Bytes)
    (hsys : a.sysFile = .ok sys) (hdict : Dictionary sys trs crs irs frs) (hne : names ≠ []) (hn : ∀ n ∈ names, 44 ∉ n)
    (ha : a.redoFile = commaList names) (hp : All2 (fun chunks n => ∃ content, fs n = .ok content ∧ IsLogFile chunks content) parts names)
    (hs : parts.flatten.flatten = its.flatMap Item.enc) (hf : ∀ it ∈ its, it.Fits)
    (harr : ∀ t ∈ trs, UsualKeys irs frs crs t.id) (hfl : All2 (Followed env { a with db := [], table := [] } trs crs irs frs) its chs)
    (hplain : ∀ ch, some ch ∈ chs → Plainly env.ff ch)
    (hah : Ahead its) (hlen : (its.flatMap Item.enc).length < 2 ^ 32)
    (hcols : SameColumns trs crs cols) (hreads : ∀ ch, some ch ∈ chs → ReadsChange sv env.ff ch)
    (hset : ∀ ch, some ch ∈ chs → ∀ s ∈ ch.sets, s.1 ∈ (cols ch.db ch.table).map (·.name)) (hname : name ≠ []) :
    ∃ all one, fromRedoFile env fs { a with db := [], table := [] } spare [] = .ok () all ∧ fromRedoFile env fs { a with db := db, table := name } spare [] = .ok () one ∧
      ∀ T, ∃ T0 T1, execUpdates sv cols (stdout all) T = some T0 ∧ execUpdates sv cols (stdout one) T = some T1 ∧
        ∀ d t, T1 d t = if t = name then T0 d t else T d t := by
  have hfl1 : All2 (Followed env { a with db := [], table := name } trs crs irs frs) its chs := by
    refine all2_imp ?_ hfl
    intro it och h
    refine followed_names h fun ch _ => ⟨rfl, fun hw e => ?_⟩
    have e : ch.table = name := e
    have hw : (((([] : Bytes) == []) || ch.db == []) && (name == [] || ch.table == name)) = false := hw
    rw [e] at hw
    simp at hw
  obtain ⟨all, h1, h2⟩ := C58_command_partial env fs { a with db := [], table := [] } spare sys trs crs irs frs names parts its chs hsys hdict hne hn ha hp hs hf harr hfl
    (fun ch hch _ => hplain ch hch) hah hlen []
  obtain ⟨one, h3, h4⟩ := C58_command_partial env fs { a with db := [], table := name } spare sys trs crs irs frs names parts its chs hsys hdict hne hn ha hp hs hf harr hfl1
    (fun ch hch _ => hplain ch hch) hah hlen []
  have hm : ∀ ch ∈ chs.filterMap id, some ch ∈ chs := by
    intro ch hch
    obtain ⟨x, hx, rfl⟩ := List.mem_filterMap.mp hch
    exact hx
  have ht : ∀ ch ∈ chs.filterMap id, TypedChange cols ch := by
    intro ch hch
    obtain ⟨it, _, hit⟩ := all2_exists_left hfl (some ch) (hm ch hch)
    exact followed_typed hcols hit (hset ch (hm ch hch))
  have hr : ∀ ch ∈ chs.filterMap id, ReadsChange sv env.ff ch := fun ch hch => hreads ch (hm ch hch)
  have e0 : (chs.filterMap id).filter (Wanted { a with db := [], table := [] }) = chs.filterMap id := List.filter_eq_self.mpr fun ch _ => rfl
  have e1 : (chs.filterMap id).filter (Wanted { a with db := [], table := name }) = (chs.filterMap id).filter fun c => c.table == name := by
    refine List.filter_congr fun ch _ => ?_
    show (((([] : Bytes) == []) || ch.db == []) && (name == [] || ch.table == name)) = _
    have : (name == []) = false := by simpa using hname
    rw [this]
    rfl
  rw [e0] at h2
  rw [e1] at h4
  refine ⟨all, one, by simpa using h1, by rw [database_ignored env fs a spare [] db hname]; simpa using h3, fun T => ⟨_, _, exec_lines h2 ht hr T,
    exec_lines h4 (fun ch hch => ht ch (List.mem_filter.mp hch).1) (fun ch hch => hr ch (List.mem_filter.mp hch).1) T, fun d t => ?_⟩⟩
  exact undo_named env.ff _ name T T d t rfl

/-- **C126 (partial).** True if no table of another database with the name was updated.  Missing: such tables (`C126_exact`, `C126_false`). -/
theorem C126_one_database_partial (env : Env) (fs : Bytes → File) (a : FromRedo) (spare : Nat) (sys : Bytes) (trs : List TableRow) (crs : List ColumnRow)
    (irs : List IndexRow) (frs : List FieldRow) (names : List Bytes) (parts : List (List Bytes)) (its : List Item) (chs : List (Option Change))
    (sv : Server) (cols : Bytes → Bytes → List Column) (db name : Bytes)
    (hsys : a.sysFile = .ok sys) (hdict : Dictionary sys trs crs irs frs) (hne : names ≠ []) (hn : ∀ n ∈ names, 44 ∉ n)
    (ha : a.redoFile = commaList names) (hp : All2 (fun chunks n => ∃ content, fs n = .ok content ∧ IsLogFile chunks content) parts names)
    (hs : parts.flatten.flatten = its.flatMap Item.enc) (hf : ∀ it ∈ its, it.Fits)
    (harr : ∀ t ∈ trs, UsualKeys irs frs crs t.id) (hfl : All2 (Followed env { a with db := [], table := [] } trs crs irs frs) its chs)
    (hplain : ∀ ch, some ch ∈ chs → Plainly env.ff ch)
    (hah : Ahead its) (hlen : (its.flatMap Item.enc).length < 2 ^ 32)
    (hcols : SameColumns trs crs cols) (hreads : ∀ ch, some ch ∈ chs → ReadsChange sv env.ff ch)
    (hset : ∀ ch, some ch ∈ chs → ∀ s ∈ ch.sets, s.1 ∈ (cols ch.db ch.table).map (·.name)) (hname : name ≠ [])
    (hdb : ∀ ch, some ch ∈ chs → ch.table = name → ch.db = db) :
    ∃ all one, fromRedoFile env fs { a with db := [], table := [] } spare [] = .ok () all ∧ fromRedoFile env fs { a with db := db, table := name } spare [] = .ok () one ∧
      ∀ T, ∃ T0 T1, execUpdates sv cols (stdout all) T = some T0 ∧ execUpdates sv cols (stdout one) T = some T1 ∧
        T1 db name = T0 db name ∧ ∀ d t, ¬ (d = db ∧ t = name) → T1 d t = T d t := by
  have hsame : ∀ (T : Tables) (d : Bytes), d ≠ db → (chs.filterMap id).foldl (fun S c => c.undo env.ff S) T d name = T d name := by
    intro T d hd
    have : ∀ c ∈ chs.filterMap id, ¬ (d = c.db ∧ name = c.table) := by
      rintro c hc ⟨e1, e2⟩
      obtain ⟨x, hx, rfl⟩ := List.mem_filterMap.mp hc
      exact hd (e1.trans (hdb c hx e2.symm))
    generalize chs.filterMap id = cs at this
    induction cs generalizing T with
    | nil => rfl
    | cons c cs ih =>
      rw [List.foldl_cons, ih _ fun x hx => this x (List.mem_cons_of_mem _ hx)]
      unfold Change.undo updateRows
      rw [if_neg (this c List.mem_cons_self)]
  obtain ⟨all, one, h1, h2, h3⟩ := C126_exact env fs a spare sys trs crs irs frs names parts its chs sv cols db name hsys hdict hne hn ha hp hs hf harr hfl hplain hah hlen
    hcols hreads hset hname
  obtain ⟨all', h1', h4⟩ := C58_command_partial env fs { a with db := [], table := [] } spare sys trs crs irs frs names parts its chs hsys hdict hne hn ha hp hs hf harr hfl
    (fun ch hch _ => hplain ch hch) hah hlen []
  rw [h1] at h1'
  have hall : all' = all := ok_lines h1'
  subst hall
  have hm : ∀ ch ∈ chs.filterMap id, some ch ∈ chs := by
    intro ch hch
    obtain ⟨x, hx, rfl⟩ := List.mem_filterMap.mp hch
    exact hx
  have e0 : (chs.filterMap id).filter (Wanted { a with db := [], table := [] }) = chs.filterMap id := List.filter_eq_self.mpr fun ch _ => rfl
  rw [e0] at h4
  refine ⟨all', one, h1, h2, fun T => ?_⟩
  obtain ⟨T0, T1, g1, g2, g3⟩ := h3 T
  refine ⟨T0, T1, g1, g2, by rw [g3, if_pos rfl], fun d t hdt => ?_⟩
  rw [g3]
  by_cases e : t = name
  · rw [if_pos e, e]
    rw [exec_lines h4 (fun ch hch => by
      obtain ⟨it, _, hit⟩ := all2_exists_left hfl (some ch) (hm ch hch)
      exact followed_typed hcols hit (hset ch (hm ch hch))) (fun ch hch => hreads ch (hm ch hch)) T] at g1
    rw [← Option.some.inj g1]
    exact hsame T d fun ed => hdt ⟨ed, e⟩
  · rw [if_neg e]

/-! ## A log -/

theorem shop2_all (env : Env) {k : Int} (hk : SevenEight k) :
    All2 (Followed env { shopRedo2 with db := [], table := [] } shopTables shopColumns (shopIndexes idKey) (shopFields idKey)) (shopLog2 k) (shopChanges2 k) := by
  have h := shop2_followed env hk
  have hm : ∀ ch, some ch ∈ shopChanges2 k → Wanted shopRedo2 ch = true := by
    intro ch hch
    rcases shop2_mem hch with rfl | rfl <;> rfl
  generalize shopChanges2 k = chs at h hm
  generalize shopLog2 k = its at h
  induction h with
  | nil => exact .nil
  | cons h1 _ ih =>
    exact .cons (followed_names h1 fun ch hch => ⟨hm ch (hch ▸ List.mem_cons_self), fun h => by cases h⟩) (ih fun ch hch => hm ch (List.mem_cons_of_mem _ hch))

theorem shop2_assigned {k : Int} : ∀ ch, some ch ∈ shopChanges2 k → ∀ s ∈ ch.sets, s.1 ∈ (shopCols ch.db ch.table).map (·.name) := by
  intro ch hch s hs
  rcases shop2_mem hch with rfl | rfl
  all_goals
    cases List.mem_singleton.mp hs
    show b! "name" ∈ (columnsOf shopColumns 20).map (·.name)
    decide

/-- the hypotheses of `C126_one_database_partial`: the updates of `shop`.`t` -/
example (env : Env) (spare : Nat) (sv : Server) : ∃ all one, fromRedoFile env (shopDisk2 8) { shopRedo2 with db := [], table := [] } spare [] = .ok () all ∧
    fromRedoFile env (shopDisk2 8) { shopRedo2 with db := b! "shop", table := b! "t" } spare [] = .ok () one ∧
    ∀ T, ∃ T0 T1, execUpdates sv shopCols (stdout all) T = some T0 ∧ execUpdates sv shopCols (stdout one) T = some T1 ∧
      T1 (b! "shop") (b! "t") = T0 (b! "shop") (b! "t") ∧ ∀ d t, ¬ (d = b! "shop" ∧ t = b! "t") → T1 d t = T d t :=
  C126_one_database_partial env (shopDisk2 8) shopRedo2 spare (shopFile idKey) shopTables shopColumns (shopIndexes idKey) (shopFields idKey) [b! "ib_logfile0"]
    [[(shopLog2 8).flatMap Item.enc]] (shopLog2 8) (shopChanges2 8) sv shopCols (b! "shop") (b! "t") rfl (shop_dictionary (.inl rfl)) (by decide)
    (by decide) rfl (shop2_disk (.inr rfl)) (by simp) (shop2_fits (.inr rfl)) shop_arranged (shop2_all env (.inr rfl))
    (fun ch hch => by
      rcases shop2_mem hch with rfl | rfl
      · exact shopChange2_plainly env (.inl rfl) (.inl rfl)
      · exact shopChange2_plainly env (.inr rfl) (.inr rfl))
    (shop2_ahead (.inr rfl)) (by have := shop2_length (.inr rfl : SevenEight 8); omega) shop2_cols (shop2_reads sv env.ff 8) shop2_assigned (by decide)
    (fun ch hch _ => by rcases shop2_mem hch with rfl | rfl <;> rfl)

/-- **C126 is false:** the output for the table `t` of the database `zoo` changes `shop`.`t`. -/
theorem C126_false : ¬ C126_statement := by
  intro h
  have hplain : ∀ ch, some ch ∈ shopChanges2 8 → Plainly testEnv.ff ch := by
    intro ch hch
    rcases shop2_mem hch with rfl | rfl
    · exact shopChange2_plainly testEnv (.inl rfl) (.inl rfl)
    · exact shopChange2_plainly testEnv (.inr rfl) (.inr rfl)
  obtain ⟨all, one, h1, h2, h3⟩ := h testEnv (shopDisk2 8) shopRedo2 0 (shopFile idKey) shopTables shopColumns (shopIndexes idKey) (shopFields idKey) [b! "ib_logfile0"]
    [[(shopLog2 8).flatMap Item.enc]] (shopLog2 8) (shopChanges2 8) anyServer shopCols (b! "zoo") (b! "t") rfl (shop_dictionary (.inl rfl)) (by decide)
    (by decide) rfl (shop2_disk (.inr rfl)) (by simp) (shop2_fits (.inr rfl)) shop_arranged (shop2_all testEnv (.inr rfl)) hplain
    (shop2_ahead (.inr rfl)) (by have := shop2_length (.inr rfl : SevenEight 8); omega) shop2_cols (shop2_reads anyServer testEnv.ff 8) shop2_assigned (by decide) (by decide)
  obtain ⟨all', one', g1, g2, g3⟩ := C126_exact testEnv (shopDisk2 8) shopRedo2 0 (shopFile idKey) shopTables shopColumns (shopIndexes idKey) (shopFields idKey)
    [b! "ib_logfile0"] [[(shopLog2 8).flatMap Item.enc]] (shopLog2 8) (shopChanges2 8) anyServer shopCols (b! "zoo") (b! "t") rfl (shop_dictionary (.inl rfl)) (by decide)
    (by decide) rfl (shop2_disk (.inr rfl)) (by simp) (shop2_fits (.inr rfl)) shop_arranged (shop2_all testEnv (.inr rfl)) hplain
    (shop2_ahead (.inr rfl)) (by have := shop2_length (.inr rfl : SevenEight 8); omega) shop2_cols (shop2_reads anyServer testEnv.ff 8) shop2_assigned (by decide)
  rw [h1] at g1
  cases g1
  rw [h2] at g2
  cases g2
  obtain ⟨T0, T1, e0, e1, _, e3⟩ := h3 (shopState [shopRow 7 (b! "zoe")])
  obtain ⟨T0', T1', f0, f1, f2⟩ := g3 (shopState [shopRow 7 (b! "zoe")])
  rw [e0] at f0
  cases f0
  rw [e1] at f1
  cases f1
  have e4 := e3 (b! "shop") (b! "t") (by decide)
  rw [f2, if_pos rfl] at e4
  obtain ⟨all', k1, k2⟩ := C58_command_partial testEnv (shopDisk2 8) { shopRedo2 with db := [], table := [] } 0 (shopFile idKey) shopTables shopColumns (shopIndexes idKey)
    (shopFields idKey) [b! "ib_logfile0"] [[(shopLog2 8).flatMap Item.enc]] (shopLog2 8) (shopChanges2 8) rfl (shop_dictionary (.inl rfl)) (by decide)
    (by decide) rfl (shop2_disk (.inr rfl)) (by simp) (shop2_fits (.inr rfl)) shop_arranged (shop2_all testEnv (.inr rfl)) (fun ch hch _ => hplain ch hch)
    (shop2_ahead (.inr rfl)) (by have := shop2_length (.inr rfl : SevenEight 8); omega) []
  rw [h1] at k1
  have hall : all' = all := ok_lines k1
  subst hall
  have k2 : All2 (Undoes testEnv.ff) all' [shopChange2 7 (b! "bob"), shopChange2 8 (b! "eve")] := k2
  have hm : ∀ ch ∈ [shopChange2 7 (b! "bob"), shopChange2 8 (b! "eve")], some ch ∈ shopChanges2 8 := by
    intro ch hch
    simp only [List.mem_cons, List.not_mem_nil, or_false] at hch
    rcases hch with rfl | rfl <;> simp [shopChanges2]
  rw [exec_lines k2 (fun ch hch => by
    obtain ⟨it, _, hit⟩ := all2_exists_left (shop2_all testEnv (.inr rfl)) (some ch) (hm ch hch)
    exact followed_typed shop2_cols hit (shop2_assigned ch (hm ch hch))) (fun ch hch => shop2_reads anyServer testEnv.ff 8 ch (hm ch hch))] at e0
  rw [← Option.some.inj e0] at e4
  have e5 := congrArg (fun l : List NamedRow => l.map fun r => r (b! "name")) e4
  exact absurd (e5 : [Orig.text (b! "bob")] = [Orig.text (b! "zoe")]) (by decide)

end Verif.Props
