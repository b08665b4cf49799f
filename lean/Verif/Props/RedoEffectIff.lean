import Verif.Props.RedoEffect
/-!
# C74, exactly: which logs are undone by the printed order
-/

namespace Verif.Props
open Verif Spec

/-- what the statement of a change does to one row of the table -/
def undoRow (ff : FloatFmt) (db t : Bytes) (r : NamedRow) (c : Change) : NamedRow :=
  if db = c.db ∧ t = c.table then if hasAll (c.keys ff) r then setAll (c.olds ff) r else r else r

theorem undo_rows (ff : FloatFmt) (db t : Bytes) (chs : List Change) (S : Tables) :
    chs.foldl (fun S ch => ch.undo ff S) S db t = (S db t).map fun r => chs.foldl (undoRow ff db t) r := by
  induction chs generalizing S with
  | nil => exact (List.map_id _).symm
  | cons c chs ih =>
    rw [List.foldl_cons, ih]
    unfold Change.undo updateRows
    split
    · rename_i e
      rw [List.map_map]
      refine List.map_congr_left fun r _ => ?_
      rw [Function.comp_apply, List.foldl_cons]
      congr 1
      unfold undoRow
      rw [if_pos e]
    · rename_i e
      refine List.map_congr_left fun r _ => ?_
      rw [List.foldl_cons]
      congr 1
      unfold undoRow
      rw [if_neg e]

/-- the change is of the key columns named by `pk`, and of no others of them -/
def Keeping (pk : Bytes → Bytes → List Bytes) (c : Change) : Prop :=
  c.key.map (·.1) = pk c.db c.table ∧ ∀ s ∈ c.sets, s.1 ∉ pk c.db c.table

theorem undoRow_key {pk : Bytes → Bytes → List Bytes} {ff : FloatFmt} {db t : Bytes} {c d : Change} (hc : Keeping pk c) (hd : Keeping pk d)
    (e : db = d.db ∧ t = d.table) (r : NamedRow) : hasAll (d.keys ff) (undoRow ff db t r c) = hasAll (d.keys ff) r := by
  unfold undoRow
  split
  · rename_i e'
    split
    · refine hasAll_setAll r fun n hm => ?_
      rw [olds_names] at hm
      obtain ⟨s, hs, rfl⟩ := List.mem_map.mp hm
      rw [keys_names, hd.1, ← e.1, ← e.2, e'.1, e'.2]
      exact hc.2 s hs
    · rfl
  · rfl

/-- the change is of this column of the row -/
def Touches (ff : FloatFmt) (db t : Bytes) (r : NamedRow) (n : Bytes) (c : Change) : Prop :=
  (db = c.db ∧ t = c.table) ∧ hasAll (c.keys ff) r = true ∧ n ∈ c.sets.map (·.1)

theorem touches_undoRow {pk : Bytes → Bytes → List Bytes} {ff : FloatFmt} {db t : Bytes} {c d : Change} (hc : Keeping pk c) (hd : Keeping pk d)
    (r : NamedRow) (n : Bytes) : Touches ff db t (undoRow ff db t r c) n d ↔ Touches ff db t r n d := by
  unfold Touches
  by_cases e : db = d.db ∧ t = d.table
  · rw [undoRow_key hc hd e]
  · simp only [e, false_and]

theorem fold_key {pk : Bytes → Bytes → List Bytes} {ff : FloatFmt} {db t : Bytes} {cs : List Change} {d : Change} (hc : ∀ c ∈ cs, Keeping pk c)
    (hd : Keeping pk d) (e : db = d.db ∧ t = d.table) (r : NamedRow) : hasAll (d.keys ff) (cs.foldl (undoRow ff db t) r) = hasAll (d.keys ff) r := by
  induction cs generalizing r with
  | nil => rfl
  | cons c cs ih => rw [List.foldl_cons, ih fun x hx => hc x (List.mem_cons_of_mem _ hx), undoRow_key (hc c List.mem_cons_self) hd e]

theorem fold_touches {pk : Bytes → Bytes → List Bytes} {ff : FloatFmt} {db t : Bytes} {cs : List Change} {d : Change} (hc : ∀ c ∈ cs, Keeping pk c)
    (hd : Keeping pk d) (r : NamedRow) (n : Bytes) : Touches ff db t (cs.foldl (undoRow ff db t) r) n d ↔ Touches ff db t r n d := by
  unfold Touches
  by_cases e : db = d.db ∧ t = d.table
  · rw [fold_key hc hd e]
  · simp only [e, false_and]

theorem fold_untouched {pk : Bytes → Bytes → List Bytes} {ff : FloatFmt} {db t : Bytes} {cs : List Change} (hc : ∀ c ∈ cs, Keeping pk c) (r : NamedRow)
    (n : Bytes) (h : ∀ c ∈ cs, ¬ Touches ff db t r n c) : cs.foldl (undoRow ff db t) r n = r n := by
  induction cs generalizing r with
  | nil => rfl
  | cons c cs ih =>
    rw [List.foldl_cons, ih (fun x hx => hc x (List.mem_cons_of_mem _ hx)) _ fun x hx => by
      rw [touches_undoRow (hc c List.mem_cons_self) (hc x (List.mem_cons_of_mem _ hx))]
      exact h x (List.mem_cons_of_mem _ hx)]
    have h0 := h c List.mem_cons_self
    unfold undoRow
    split
    · rename_i e
      split
      · rename_i hh
        refine setAll_other r fun hm => h0 ⟨e, hh, ?_⟩
        rwa [olds_names] at hm
      · rfl
    · rfl

theorem fold_last {pk : Bytes → Bytes → List Bytes} {ff : FloatFmt} {db t : Bytes} {cs ds : List Change} {d : Change}
    (hc : ∀ c ∈ cs ++ d :: ds, Keeping pk c) (r : NamedRow) (n : Bytes) (hd : Touches ff db t r n d) (h : ∀ c ∈ ds, ¬ Touches ff db t r n c) :
    (cs ++ d :: ds).foldl (undoRow ff db t) r n = setAll (d.olds ff) r n := by
  have kd := hc d (by simp)
  have kc : ∀ c ∈ cs, Keeping pk c := fun c hm => hc c (by simp [hm])
  have ks : ∀ c ∈ ds, Keeping pk c := fun c hm => hc c (by simp [hm])
  rw [List.foldl_append, List.foldl_cons, fold_untouched ks _ _ fun c hm => by
    rw [touches_undoRow kd (ks c hm), fold_touches kc (ks c hm)]
    exact h c hm]
  unfold undoRow
  rw [if_pos hd.1]
  have := (fold_key kc kd hd.1 r).trans hd.2.1
  unfold undoRow at this
  rw [if_pos this]
  exact setAll_set _ _ (by rw [olds_names]; exact hd.2.2)

theorem last_split {α : Type} (P : α → Prop) (l : List α) (h : ∃ a ∈ l, P a) : ∃ cs d ds, l = cs ++ d :: ds ∧ P d ∧ ∀ c ∈ ds, ¬ P c := by
  induction l with
  | nil => obtain ⟨a, ha, _⟩ := h; cases ha
  | cons x l ih =>
    by_cases hl : ∃ a ∈ l, P a
    · obtain ⟨cs, d, ds, rfl, h1, h2⟩ := ih hl
      exact ⟨x :: cs, d, ds, rfl, h1, h2⟩
    · obtain ⟨a, ha, hp⟩ := h
      rcases List.mem_cons.mp ha with rfl | ha
      · exact ⟨[], a, l, rfl, hp, fun c hc hpc => hl ⟨c, hc, hpc⟩⟩
      · exact absurd ⟨a, ha, hp⟩ hl

/-- statements of other columns or rows leave the old values of a change where they are -/
theorem apart_olds {pk : Bytes → Bytes → List Bytes} {ff : FloatFmt} {d : Change} (kd : Keeping pk d) {cs : List Change} (hk : ∀ c ∈ cs, Keeping pk c)
    (ha : ∀ c ∈ cs, Apart ff d c) {S : Tables} (h : HasOlds ff d S) : HasOlds ff d (cs.foldl (fun S ch => ch.undo ff S) S) := by
  induction cs generalizing S with
  | nil => exact h
  | cons c cs ih =>
    rw [List.foldl_cons]
    exact ih (fun x hx => hk x (List.mem_cons_of_mem _ hx)) (fun x hx => ha x (List.mem_cons_of_mem _ hx))
      (undo_apart_olds (ha c List.mem_cons_self) (hk c List.mem_cons_self).1 (hk c List.mem_cons_self).2 kd.1 h)

/-- Statements that, executed from the last to the first, give the tables `S`, do so in their own order if and only if these hold, in each column of a
row that is set, what the last statement for it sets. -/
theorem forward_iff_of_reverse {pk : Bytes → Bytes → List Bytes} {ff : FloatFmt} {chs : List Change} {S S' : Tables} (hk : ∀ c ∈ chs, Keeping pk c)
    (hback : chs.reverse.foldl (fun S ch => ch.undo ff S) S' = S) (hone : ∀ c ∈ chs, ∃ s, c.sets = [s]) :
    chs.foldl (fun S ch => ch.undo ff S) S' = S ↔ ∀ cs d ds, chs = cs ++ d :: ds → (∀ c ∈ ds, Apart ff d c) → HasOlds ff d S := by
  constructor
  · intro e cs d ds hsplit ha
    obtain ⟨s, hs⟩ := hone d (by rw [hsplit]; simp)
    subst hsplit
    rw [← e, List.foldl_append, List.foldl_cons]
    have kd := hk d (by simp)
    exact apart_olds kd (fun c hc => hk c (by simp [hc])) ha (undo_olds kd.1 kd.2 (by rw [hs]; simp) _)
  · intro hl
    funext db t
    have hS := congrFun (congrFun hback db) t
    rw [undo_rows] at hS ⊢
    rw [← hS]
    refine List.map_congr_left fun r hr => funext fun n => ?_
    by_cases ht : ∃ c ∈ chs, Touches ff db t r n c
    · obtain ⟨cs, d, ds, hsplit, hd, hds⟩ := last_split _ _ ht
      have kd := hk d (by rw [hsplit]; simp)
      obtain ⟨s, hs⟩ := hone d (by rw [hsplit]; simp)
      have hn : n = s.1 := by
        have := hd.2.2
        rw [hs] at this
        exact List.mem_singleton.mp this
      have hap : ∀ c ∈ ds, Apart ff d c := by
        intro c hc
        have hno := hds c hc
        by_contra hna
        unfold Apart at hna
        simp only [not_or, not_not, not_forall] at hna
        obtain ⟨e1, e2, e3, x, hx, hx'⟩ := hna
        refine hno ⟨⟨hd.1.1.trans e1, hd.1.2.trans e2⟩, by rw [← e3]; exact hd.2.1, ?_⟩
        rw [hs] at hx
        have hxs : x = s.1 := List.mem_singleton.mp hx
        rw [hn, ← hxs]
        exact hx'
      have hold := hl cs d ds hsplit hap
      have hrev : ∀ c ∈ chs.reverse, Keeping pk c := fun c hc => hk c (List.mem_reverse.mp hc)
      have hmem : chs.reverse.foldl (undoRow ff db t) r ∈ S d.db d.table := by
        rw [← hd.1.1, ← hd.1.2, ← hS]
        exact List.mem_map_of_mem hr
      have hval := hold _ hmem (by rw [fold_key hrev kd hd.1]; exact hd.2.1) (s.1, origOf ff s.2) (by unfold Change.olds; rw [hs]; simp)
      dsimp only at hval
      rw [hn, hval]
      rw [hn] at hd hds
      rw [hsplit] at hk ⊢
      rw [fold_last hk r s.1 hd hds]
      unfold Change.olds
      rw [hs]
      simp [setAll]
    · have ht : ∀ c ∈ chs, ¬ Touches ff db t r n c := fun c hc hh => ht ⟨c, hc, hh⟩
      rw [fold_untouched hk r n ht, fold_untouched (fun c hc => hk c (List.mem_reverse.mp hc)) r n fun c hc => ht c (List.mem_reverse.mp hc)]

/-- Executed in the order of the log, the statements give the tables before the changes if and only if these hold, in each column of a row that was
changed, what the column held before its last change. -/
theorem undo_forward_iff {cols : Bytes → Bytes → List Column} {pk : Bytes → Bytes → List Bytes} {ff : FloatFmt} {chs : List Change} {S S' : Tables}
    (h : Happened cols pk ff chs S S') (hone : ∀ c ∈ chs, ∃ s, c.sets = [s]) :
    chs.foldl (fun S ch => ch.undo ff S) S' = S ↔ ∀ cs d ds, chs = cs ++ d :: ds → (∀ c ∈ ds, Apart ff d c) → HasOlds ff d S :=
  forward_iff_of_reverse (happened_keys h) (undo_reverse h) hone

/-- **C74, exactly.** For the logs of C58: the printed lines, executed on the tables after the updates, give the tables before them if and only if
each column of a row that was updated held the same value before its first update and before its last one. -/
theorem C74_iff (env : Env) (fs : Bytes → File) (a : FromRedo) (spare : Nat) (sys : Bytes) (trs : List TableRow) (crs : List ColumnRow)
    (irs : List IndexRow) (frs : List FieldRow) (names : List Bytes) (parts : List (List Bytes)) (its : List Item) (chs : List (Option Change))
    (sv : Server) (cols : Bytes → Bytes → List Column) (pk : Bytes → Bytes → List Bytes) (S S' : Tables)
    (hsys : a.sysFile = .ok sys) (hdict : Dictionary sys trs crs irs frs) (hne : names ≠ []) (hn : ∀ n ∈ names, 44 ∉ n)
    (ha : a.redoFile = commaList names) (hp : All2 (fun chunks n => ∃ content, fs n = .ok content ∧ IsLogFile chunks content) parts names)
    (hs : parts.flatten.flatten = its.flatMap Item.enc) (hf : ∀ it ∈ its, it.Fits)
    (harr : ∀ t ∈ trs, UsualKeys irs frs crs t.id) (hfl : All2 (Followed env a trs crs irs frs) its chs)
    (hplain : ∀ ch, some ch ∈ chs → Wanted a ch = true → Plainly env.ff ch)
    (hah : Ahead its) (hlen : (its.flatMap Item.enc).length < 2 ^ 32)
    (hcols : SameColumns trs crs cols) (hreads : ∀ ch, some ch ∈ chs → ReadsChange sv env.ff ch)
    (hh : Happened cols pk env.ff ((chs.filterMap id).filter (Wanted a)) S S') :
    (∃ lines, fromRedoFile env fs a spare [] = .ok () lines ∧ execUpdates sv cols (stdout lines) S' = some S) ↔
      ∀ cs d ds, (chs.filterMap id).filter (Wanted a) = cs ++ d :: ds → (∀ c ∈ ds, Apart env.ff d c) → HasOlds env.ff d S := by
  obtain ⟨lines, h1, h2, _⟩ := redo_effect env fs a spare sys trs crs irs frs names parts its chs sv cols pk S S' hsys hdict hne hn ha hp hs hf harr hfl
    hplain hah hlen hcols hreads hh
  rw [← undo_forward_iff hh fun c hc => by
    obtain ⟨h3, h4⟩ := List.mem_filter.mp hc
    obtain ⟨x, hx, rfl⟩ := List.mem_filterMap.mp h3
    obtain ⟨s, hs', _⟩ := (hplain c hx h4).sets
    exact ⟨s, hs'⟩]
  constructor
  · rintro ⟨l, e1, e2⟩
    rw [h1] at e1
    cases e1
    rw [h2 S'] at e2
    exact Option.some.inj e2
  · intro e
    exact ⟨lines, h1, by rw [h2 S', e]⟩

/-- the hypotheses of `C74_iff`, for the row that was updated twice -/
example (env : Env) (spare : Nat) (sv : Server) :
    (∃ lines, fromRedoFile env (shopDisk2 7) shopRedo2 spare [] = .ok () lines ∧
      execUpdates sv shopCols (stdout lines) (shopState [shopRow 7 (b! "zoe")]) = some (shopState [shopRow 7 (b! "bob")])) ↔
    ∀ cs d ds, [shopChange2 7 (b! "bob"), shopChange2 7 (b! "eve")] = cs ++ d :: ds → (∀ c ∈ ds, Apart env.ff d c) →
      HasOlds env.ff d (shopState [shopRow 7 (b! "bob")]) :=
  C74_iff env (shopDisk2 7) shopRedo2 spare (shopFile idKey) shopTables shopColumns (shopIndexes idKey) (shopFields idKey)
    [b! "ib_logfile0"] [[(shopLog2 7).flatMap Item.enc]] (shopLog2 7) (shopChanges2 7) sv shopCols (fun _ _ => [b! "id"]) _ _ rfl
    (shop_dictionary (.inl rfl)) (by decide) (by decide) rfl (shop2_disk (.inl rfl)) (by simp) (shop2_fits (.inl rfl)) shop_arranged
    (shop2_followed env (.inl rfl)) (fun ch hch _ => by
      rcases shop2_mem hch with rfl | rfl
      · exact shopChange2_plainly env (.inl rfl) (.inl rfl)
      · exact shopChange2_plainly env (.inl rfl) (.inr rfl))
    (shop2_ahead (.inl rfl)) (by have := shop2_length (.inl rfl : SevenEight 7); omega) shop2_cols (shop2_reads sv env.ff 7) (shop2_twice env.ff)

/-- A row that was updated three times and is restored: its name was `bob` before the first update and before the last one. -/
example (ff : FloatFmt) : Happened shopCols (fun _ _ => [b! "id"]) ff [shopChange2 7 (b! "bob"), shopChange2 7 (b! "eve"), shopChange2 7 (b! "bob")]
    (shopState [shopRow 7 (b! "bob")]) (shopState [shopRow 7 (b! "zoe")]) ∧
    [shopChange2 7 (b! "bob"), shopChange2 7 (b! "eve"), shopChange2 7 (b! "bob")].foldl (fun S ch => ch.undo ff S) (shopState [shopRow 7 (b! "zoe")]) =
      shopState [shopRow 7 (b! "bob")] := by
  constructor
  · refine .cons (shopState_changed ff 7 _ (b! "eve") _ [shopRow 7 (b! "eve")] ?_ ?_)
      (.cons (shopState_changed ff 7 _ (b! "bob") _ [shopRow 7 (b! "bob")] ?_ ?_) (.cons (shopState_changed ff 7 _ (b! "zoe") _ _ ?_ ?_) .nil))
    all_goals simp [shopRow_has, shopRow_set]
  · have e (x y : Bytes) : (shopChange2 7 y).undo ff (shopState [shopRow 7 x]) = shopState [shopRow 7 y] := by
      refine (shopState_update ff 7 y y _).trans ?_
      simp [shopRow_has, shopRow_set]
    simp only [List.foldl_cons, List.foldl_nil, e]

end Verif.Props
