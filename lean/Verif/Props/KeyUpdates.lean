import Verif.Props.RedoSafe
/-!
# C115: updates of the primary key

InnoDB does not change a primary key in place.  It marks the row with the old key as deleted and inserts one with the new key: the log gets an undo
record of kind 14 (TRX_UNDO_DEL_MARK_REC) with the old key and one of kind 11 (TRX_UNDO_INSERT_REC) with the new key, or of kind 13
(TRX_UNDO_UPD_DEL_REC) if a row with that key was there, marked as deleted.
-/

namespace Verif.Props
open Verif Spec

/-- columns and their values -/
def keyNamed (ff : FloatFmt) (names : List Bytes) (keys : List TVal) : List (Bytes × Orig) := (names.zip keys).map fun k => (k.1, origOf ff (some k.2))

/-- an undo record of one of these kinds, of the row of this table with this key -/
def UndoOf (zone : Nat → Int) (trs : List TableRow) (crs : List ColumnRow) (irs : List IndexRow) (frs : List FieldRow) (kinds : List Nat)
    (db table : Bytes) (names : List Bytes) (keys : List TVal) (it : Item) : Prop :=
  ∃ b sp pg u t l, it = .record b sp pg (.undoInsert u) ∧ t ∈ trs ∧ t.id = u.tableId ∧ t.name = db ++ b! "/" ++ table ∧ Keyed crs irs frs t l names ∧
    KeyValues zone (columnsOf crs t.id) names keys ∧ u.key = keys.map TVal.enc ∧ u.kind ∈ kinds

/-- a change of the key of a row: the table, the old key and the new key -/
structure Rekey where
  db : Bytes
  table : Bytes
  old : List (Bytes × Orig)
  new : List (Bytes × Orig)

/-- These elements of the log took the tables from `S` to `S'`, with these changes of other columns and these changes of keys. -/
inductive Steps (zone : Nat → Int) (trs : List TableRow) (crs : List ColumnRow) (irs : List IndexRow) (frs : List FieldRow)
    (cols : Bytes → Bytes → List Column) (pk : Bytes → Bytes → List Bytes) (ff : FloatFmt) :
    List Item → List (Option Change) → List Rekey → Tables → Tables → Prop
  | nil {S} : Steps zone trs crs irs frs cols pk ff [] [] [] S S
  | other {it its chs ks S S'} : (∀ b sp pg u, it ≠ .record b sp pg (.undoInsert u)) → Steps zone trs crs irs frs cols pk ff its chs ks S S' →
      Steps zone trs crs irs frs cols pk ff (it :: its) (none :: chs) ks S S'
  | update {it ch its chs ks S S1 S2} : Logs zone trs crs irs frs it (some ch) → Changed cols pk ff ch S S1 →
      Steps zone trs crs irs frs cols pk ff its chs ks S1 S2 → Steps zone trs crs irs frs cols pk ff (it :: its) (some ch :: chs) ks S S2
  | rekey {it it' db table keys keys' its chs ks S S'} : UndoOf zone trs crs irs frs [14] db table (pk db table) keys it →
      UndoOf zone trs crs irs frs [11, 13] db table (pk db table) keys' it' →
      Steps zone trs crs irs frs cols pk ff its chs ks (updateRows db table (keyNamed ff (pk db table) keys) (keyNamed ff (pk db table) keys') S) S' →
      Steps zone trs crs irs frs cols pk ff (it :: it' :: its) (none :: none :: chs)
        (⟨db, table, keyNamed ff (pk db table) keys, keyNamed ff (pk db table) keys'⟩ :: ks) S S'

/-- **C115**, as stated: as C74 for changes each of its own column, also if keys were changed: the output, executed on the tables as they are after the
updates, gives the tables before them. -/
def C115_statement : Prop :=
  ∀ (env : Env) (fs : Bytes → File) (a : FromRedo) (spare : Nat) (sys : Bytes) (trs : List TableRow) (crs : List ColumnRow)
    (irs : List IndexRow) (frs : List FieldRow) (names : List Bytes) (parts : List (List Bytes)) (its : List Item) (chs : List (Option Change))
    (ks : List Rekey) (sv : Server) (cols : Bytes → Bytes → List Column) (pk : Bytes → Bytes → List Bytes) (S S' : Tables),
    a.sysFile = .ok sys → Dictionary sys trs crs irs frs → names ≠ [] → (∀ n ∈ names, 44 ∉ n) → a.redoFile = commaList names →
    All2 (fun chunks n => ∃ content, fs n = .ok content ∧ IsLogFile chunks content) parts names →
    parts.flatten.flatten = its.flatMap Item.enc → (∀ it ∈ its, it.Fits) →
    SameColumns trs crs cols → (∀ ch, some ch ∈ chs → ReadsChange sv env.ff ch) → (∀ ch, some ch ∈ chs → Wanted a ch = true) →
    (chs.filterMap id).Pairwise (Apart env.ff) → Steps env.zone trs crs irs frs cols pk env.ff its chs ks S S' →
    ∃ lines, fromRedoFile env fs a spare [] = .ok () lines ∧ execUpdates sv cols (stdout lines) S' = some S

/-! ### The keys stay as they are -/

/-- the keys of the rows of a table -/
def keysOf (pk : Bytes → Bytes → List Bytes) (T : Tables) (db t : Bytes) : List (List Orig) := (T db t).map fun r => (pk db t).map r

theorem keys_kept {cols : Bytes → Bytes → List Column} {pk : Bytes → Bytes → List Bytes} {ff : FloatFmt} {chs : List Change}
    (ho : ∀ ch ∈ chs, Ordinary cols pk ch) {T T' : Tables} (h : OnlyUndone ff chs T T') (db t : Bytes) : keysOf pk T' db t = keysOf pk T db t := by
  unfold keysOf
  have h := h db t
  revert h
  generalize T db t = rs
  generalize T' db t = rs'
  intro h
  induction h with
  | nil => rfl
  | @cons r r' rs rs' h _ ih =>
    rw [List.map_cons, List.map_cons, ih]
    congr 1
    refine List.map_congr_left fun n hn => ?_
    rcases h n with h | ⟨ch, hch, rfl, rfl, _, hm⟩
    · exact h
    · obtain ⟨s, hs, e⟩ := List.mem_map.mp hm
      have e : s.1 = n := congrArg Prod.fst e
      exact absurd hn (by rw [← e]; exact ((ho ch hch).columns s hs).2)

/-- **C115, the keys:** executed on any tables, the output changes the key of no row.  So it never gives tables with other keys than those it is executed
on: no change of a key is ever undone. -/
theorem C115_never (env : Env) (fs : Bytes → File) (a : FromRedo) (spare : Nat) (sys : Bytes) (trs : List TableRow) (crs : List ColumnRow)
    (irs : List IndexRow) (frs : List FieldRow) (names : List Bytes) (parts : List (List Bytes)) (its : List Item) (chs : List (Option Change))
    (sv : Server) (cols : Bytes → Bytes → List Column) (pk : Bytes → Bytes → List Bytes)
    (hsys : a.sysFile = .ok sys) (hdict : Dictionary sys trs crs irs frs) (hne : names ≠ []) (hn : ∀ n ∈ names, 44 ∉ n)
    (ha : a.redoFile = commaList names) (hp : All2 (fun chunks n => ∃ content, fs n = .ok content ∧ IsLogFile chunks content) parts names)
    (hs : parts.flatten.flatten = its.flatMap Item.enc) (hf : ∀ it ∈ its, it.Fits)
    (harr : ∀ t ∈ trs, UsualKeys irs frs crs t.id) (hfl : All2 (Followed env a trs crs irs frs) its chs)
    (hplain : ∀ ch, some ch ∈ chs → Wanted a ch = true → Plainly env.ff ch)
    (hah : Ahead its) (hlen : (its.flatMap Item.enc).length < 2 ^ 32)
    (hcols : SameColumns trs crs cols) (hreads : ∀ ch, some ch ∈ chs → ReadsChange sv env.ff ch)
    (hord : ∀ ch, some ch ∈ chs → Wanted a ch = true → Ordinary cols pk ch) :
    ∃ lines, fromRedoFile env fs a spare [] = .ok () lines ∧
      (∀ T, ∃ T', execUpdates sv cols (stdout lines) T = some T' ∧ ∀ db t, keysOf pk T' db t = keysOf pk T db t) ∧
      ∀ S S' db t, keysOf pk S' db t ≠ keysOf pk S db t → execUpdates sv cols (stdout lines) S' ≠ some S := by
  obtain ⟨lines, h1, h2⟩ := C112_any_state_partial env fs a spare sys trs crs irs frs names parts its chs sv cols pk hsys hdict hne hn ha hp hs hf harr hfl
    hplain hah hlen hcols hreads hord
  have h3 : ∀ T, ∃ T', execUpdates sv cols (stdout lines) T = some T' ∧ ∀ db t, keysOf pk T' db t = keysOf pk T db t := by
    intro T
    obtain ⟨T', h3, h4, _⟩ := h2 T
    refine ⟨T', h3, keys_kept (cols := cols) ?_ h4⟩
    intro ch hch
    obtain ⟨hch, hw⟩ := List.mem_filter.mp hch
    obtain ⟨x, hx, rfl⟩ := List.mem_filterMap.mp hch
    exact hord ch hx hw
  refine ⟨lines, h1, h3, ?_⟩
  intro S S' db t hk he
  obtain ⟨T', h4, h5⟩ := h3 S'
  rw [he] at h4
  cases h4
  exact hk (h5 db t).symm

/-! ### Rows that keep their keys -/

/-- the row has none of the keys that were changed -/
def KeepsKey (ks : List Rekey) (db t : Bytes) (r : NamedRow) : Prop := ∀ k ∈ ks, k.db = db → k.table = t → hasAll k.old r = false

/-- one row as tables -/
def oneRow (db t : Bytes) (r : NamedRow) : Tables := fun d u => if d = db ∧ u = t then [r] else []

theorem oneRow_self (db t : Bytes) (r : NamedRow) : oneRow db t r db t = [r] := if_pos ⟨rfl, rfl⟩

theorem oneRow_update (db t : Bytes) (r : NamedRow) (d u : Bytes) (key sets : List (Bytes × Orig)) :
    updateRows d u key sets (oneRow db t r) = oneRow db t (if db = d ∧ t = u ∧ hasAll key r = true then setAll sets r else r) := by
  funext x y
  unfold updateRows oneRow
  by_cases h : x = db ∧ y = t
  · obtain ⟨rfl, rfl⟩ := h
    by_cases h' : x = d ∧ y = u
    · obtain ⟨rfl, rfl⟩ := h'
      simp
    · have : ¬ (x = d ∧ y = u ∧ hasAll key r = true) := fun e => h' ⟨e.1, e.2.1⟩
      rw [if_neg h', if_neg this]
  · rw [if_neg h, if_neg h]
    split <;> rfl

theorem updateRows_map (d u : Bytes) (key sets : List (Bytes × Orig)) (S : Tables) (db t : Bytes) : updateRows d u key sets S db t =
    (S db t).map fun r => if db = d ∧ t = u ∧ hasAll key r = true then setAll sets r else r := by
  unfold updateRows
  by_cases h' : db = d ∧ t = u
  · rw [if_pos h']
    refine List.map_congr_left fun r _ => ?_
    by_cases h'' : hasAll key r = true
    · rw [if_pos h'', if_pos ⟨h'.1, h'.2, h''⟩]
    · rw [if_neg h'', if_neg fun e => h'' e.2.2]
  · rw [if_neg h']
    refine ((List.map_congr_left fun r _ => ?_).trans (List.map_id _)).symm
    rw [if_neg fun e => h' ⟨e.1, e.2.1⟩]
    rfl

theorem all2_unmap {α β γ : Type} {P : β → γ → Prop} {Q : α → γ → Prop} {f : α → β} {l : List α} {m : List γ} (h : All2 P (l.map f) m)
    (hi : ∀ a ∈ l, ∀ c, P (f a) c → Q a c) : All2 Q l m := by
  induction l generalizing m with
  | nil =>
    cases h
    exact .nil
  | cons a l ih =>
    cases h with
    | cons h1 h2 => exact .cons (hi a List.mem_cons_self _ h1) (ih h2 fun x hx => hi x (List.mem_cons_of_mem _ hx))

theorem all2_to_map {α β γ : Type} {P : α → β → Prop} {Q : α → γ → Prop} {f : β → γ} {l : List α} {m : List β} (h : All2 P l m)
    (hi : ∀ a b, P a b → Q a (f b)) : All2 Q l (m.map f) := by
  induction h with
  | nil => exact .nil
  | cons h _ ih => exact .cons (hi _ _ h) ih

theorem keyNamed_names {ff : FloatFmt} {names : List Bytes} {keys : List TVal} (h : names.length = keys.length) : (keyNamed ff names keys).map (·.1) = names := by
  unfold keyNamed
  rw [List.map_map]
  have : ((fun x : Bytes × Orig => x.1) ∘ fun k : Bytes × TVal => (k.1, origOf ff (some k.2))) = Prod.fst := rfl
  rw [this, List.map_fst_zip (by omega)]

theorem keyValues_length {zone : Nat → Int} {cs : List Column} {names : List Bytes} {keys : List TVal} (h : KeyValues zone cs names keys) :
    names.length = keys.length := by
  induction h with
  | nil => rfl
  | cons _ _ ih => simp [ih]

section
variable {zone : Nat → Int} {trs : List TableRow} {crs : List ColumnRow} {irs : List IndexRow} {frs : List FieldRow}
  {cols : Bytes → Bytes → List Column} {pk : Bytes → Bytes → List Bytes} {ff : FloatFmt}

theorem steps_ordinary {its : List Item} {chs : List (Option Change)} {ks : List Rekey} {S S' : Tables}
    (h : Steps zone trs crs irs frs cols pk ff its chs ks S S') : ∀ ch, some ch ∈ chs → Ordinary cols pk ch := by
  induction h with
  | nil => exact nofun
  | other _ _ ih =>
    intro ch hch
    exact ih ch (by simpa using hch)
  | update _ hc _ ih =>
    intro ch hch
    rcases List.mem_cons.mp hch with e | hch
    · cases e
      exact ⟨hc.key, hc.columns⟩
    · exact ih ch hch
  | rekey _ _ _ ih =>
    intro ch hch
    exact ih ch (by simpa using hch)

/-- the names in the old keys -/
theorem steps_old_names {its : List Item} {chs : List (Option Change)} {ks : List Rekey} {S S' : Tables}
    (h : Steps zone trs crs irs frs cols pk ff its chs ks S S') : ∀ k ∈ ks, k.old.map (·.1) = pk k.db k.table := by
  induction h with
  | nil => exact nofun
  | other _ _ ih => exact ih
  | update _ _ _ ih => exact ih
  | rekey hu _ _ ih =>
    intro k hk
    rcases List.mem_cons.mp hk with rfl | hk
    · obtain ⟨_, _, _, _, _, _, _, _, _, _, _, hv, _⟩ := hu
      exact keyNamed_names (keyValues_length hv)
    · exact ih k hk

/-- What the log does to a row that keeps its key, it does by the updates alone. -/
theorem steps_row {its : List Item} {chs : List (Option Change)} {ks : List Rekey} {S S' : Tables}
    (h : Steps zone trs crs irs frs cols pk ff its chs ks S S') (db t : Bytes) :
    All2 (fun r r' => KeepsKey ks db t r → Happened cols pk ff (chs.filterMap id) (oneRow db t r) (oneRow db t r')) (S db t) (S' db t) := by
  induction h with
  | @nil S =>
    have := all2_map_self (P := fun r r' : NamedRow => KeepsKey [] db t r → Happened cols pk ff [] (oneRow db t r) (oneRow db t r')) (f := id)
      (l := S db t) fun r _ _ => .nil
    rwa [List.map_id] at this
  | other _ _ ih => exact ih
  | @update it ch its chs ks S S1 S2 hl hc hs ih =>
    obtain ⟨news, hnews, rfl⟩ := hc.new
    rw [updateRows_map] at ih
    refine all2_unmap ih fun r hr r' hh hk => ?_
    refine .cons (S1 := oneRow db t (if db = ch.db ∧ t = ch.table ∧ hasAll (ch.keys ff) r = true then setAll news r else r)) ⟨hc.key, hc.columns, ?_, news, hnews, ?_⟩ (hh ?_)
    · intro x hx hxk
      unfold oneRow at hx
      split at hx
      · next e =>
        cases List.mem_singleton.mp hx
        exact hc.old r (by rw [e.1, e.2]; exact hr) hxk
      · cases hx
    · exact (oneRow_update db t r ch.db ch.table (ch.keys ff) news).symm
    · intro k hkm h1 h2
      have := hk k hkm h1 h2
      split
      · next e =>
        rw [hasAll_setAll r ?_]
        · exact this
        · intro s hsn hko
          rw [steps_old_names hs k hkm, h1, h2, e.1, e.2.1] at hko
          rw [hnews] at hsn
          obtain ⟨x, hx, rfl⟩ := List.mem_map.mp hsn
          exact (hc.columns x hx).2 hko
      · exact this
  | @rekey it it' d u keys keys' its chs ks S S' h1 h2 h3 ih =>
    rw [updateRows_map] at ih
    refine all2_unmap ih fun r hr r' hh hk => ?_
    have hno : ¬ (db = d ∧ t = u ∧ hasAll (keyNamed ff (pk d u) keys) r = true) := by
      rintro ⟨rfl, rfl, e⟩
      have := hk _ List.mem_cons_self rfl rfl
      rw [e] at this
      cases this
    rw [if_neg hno] at hh
    exact hh fun k hkm => hk k (List.mem_cons_of_mem _ hkm)

end

/-- **C115, in part:** the rows whose keys were not changed are as before the updates.  Without changes of keys that is all rows.  (Missing: the rows with
changed keys, see `C115_never`, and what is missing in C58 and C74.) -/
theorem C115_kept_partial (env : Env) (fs : Bytes → File) (a : FromRedo) (spare : Nat) (sys : Bytes) (trs : List TableRow) (crs : List ColumnRow)
    (irs : List IndexRow) (frs : List FieldRow) (names : List Bytes) (parts : List (List Bytes)) (its : List Item) (chs : List (Option Change))
    (ks : List Rekey) (sv : Server) (cols : Bytes → Bytes → List Column) (pk : Bytes → Bytes → List Bytes) (S S' : Tables)
    (hsys : a.sysFile = .ok sys) (hdict : Dictionary sys trs crs irs frs) (hne : names ≠ []) (hn : ∀ n ∈ names, 44 ∉ n)
    (ha : a.redoFile = commaList names) (hp : All2 (fun chunks n => ∃ content, fs n = .ok content ∧ IsLogFile chunks content) parts names)
    (hs : parts.flatten.flatten = its.flatMap Item.enc) (hf : ∀ it ∈ its, it.Fits)
    (harr : ∀ t ∈ trs, UsualKeys irs frs crs t.id) (hfl : All2 (Followed env a trs crs irs frs) its chs)
    (hplain : ∀ ch, some ch ∈ chs → Wanted a ch = true → Plainly env.ff ch)
    (hah : Ahead its) (hlen : (its.flatMap Item.enc).length < 2 ^ 32)
    (hcols : SameColumns trs crs cols) (hreads : ∀ ch, some ch ∈ chs → ReadsChange sv env.ff ch) (hw : ∀ ch, some ch ∈ chs → Wanted a ch = true)
    (hap : (chs.filterMap id).Pairwise (Apart env.ff)) (hst : Steps env.zone trs crs irs frs cols pk env.ff its chs ks S S') :
    ∃ lines T, fromRedoFile env fs a spare [] = .ok () lines ∧ execUpdates sv cols (stdout lines) S' = some T ∧
      (∀ db t, All2 (fun r r' => KeepsKey ks db t r → r' = r) (S db t) (T db t)) ∧ (ks = [] → T = S) := by
  obtain ⟨lines, h1, h2⟩ := C58_command_partial env fs a spare sys trs crs irs frs names parts its chs hsys hdict hne hn ha hp hs hf harr hfl hplain hah hlen []
  have hm : ∀ ch ∈ chs.filterMap id, some ch ∈ chs := by
    intro ch hch
    obtain ⟨x, hx, rfl⟩ := List.mem_filterMap.mp hch
    exact hx
  rw [List.filter_eq_self.mpr fun ch hch => hw ch (hm ch hch)] at h2
  have ho := steps_ordinary hst
  have ht : ∀ ch ∈ chs.filterMap id, TypedChange cols ch := by
    intro ch hch
    obtain ⟨it, _, hit⟩ := all2_exists_left hfl (some ch) (hm ch hch)
    exact followed_typed hcols hit fun s hs => ((ho ch (hm ch hch)).columns s hs).1
  have he := exec_lines h2 ht (fun ch hch => hreads ch (hm ch hch)) S'
  have hrow : ∀ db t, All2 (fun r r' => KeepsKey ks db t r → r' = r) (S db t) ((chs.filterMap id).foldl (fun S ch => ch.undo env.ff S) S' db t) := by
    intro db t
    rw [undo_rows]
    refine all2_to_map (steps_row hst db t) fun r r' hh hk => ?_
    have := congrFun (congrFun (undo_forward (hh hk) hap) db) t
    rw [undo_rows, oneRow_self, oneRow_self] at this
    exact List.singleton_inj.mp this
  refine ⟨lines, _, by simpa using h1, he, hrow, ?_⟩
  rintro rfl
  funext db t
  have := hrow db t
  revert this
  generalize S db t = l
  generalize (chs.filterMap id).foldl (fun S ch => ch.undo env.ff S) S' db t = m
  intro h
  induction h with
  | nil => rfl
  | cons h _ ih => rw [h nofun, ih]

/-! ### A log -/

/-- an undo record of the kind 11 or 14 of the row `k` -/
def rekeyUndo (kind : Nat) (k : Int) (no : Nat) : Undo := ⟨kind, 1, no, 20, 0, 2 ^ 33, 2 ^ 50, [intEnc 4 k], [], []⟩

/-- the name of row 7 was `bob`; row 8 became row 9 -/
def rekeyLog : List Item :=
  [.record false 5 3 (.bytes2 120 77), .record true 0 300 (.undoInsert (shopUpdate 7 (b! "bob") 3)), .record true 0 300 (.undoInsert (rekeyUndo 14 8 4)),
    .record true 0 300 (.undoInsert (rekeyUndo 11 9 5)), .record true 5 3 (.bytes2 120 77)]

def rekeyChanges : List (Option Change) := [none, some (shopChange2 7 (b! "bob")), none, none, none]

def rekeyDisk (_ : Bytes) : File := .ok (logFile (rekeyLog.flatMap Item.enc))

def idNames : Bytes → Bytes → List Bytes := fun _ _ => [b! "id"]

def rekeyEight (ff : FloatFmt) : Rekey := ⟨b! "shop", b! "t", keyNamed ff [b! "id"] [.int 4 8], keyNamed ff [b! "id"] [.int 4 9]⟩

set_option maxRecDepth 4000 in
theorem rekey_length : (rekeyLog.flatMap Item.enc).length ≤ 300 := by decide

theorem rekey_disk : All2 (fun chunks n => ∃ content, rekeyDisk n = .ok content ∧ IsLogFile chunks content) [[rekeyLog.flatMap Item.enc]] [b! "ib_logfile0"] :=
  .cons ⟨_, rfl, logFile_is _ (by have := rekey_length; omega)⟩ .nil

theorem rekey_fits : ∀ it ∈ rekeyLog, it.Fits := by
  intro it hit
  simp only [rekeyLog, List.mem_cons, List.not_mem_nil, or_false] at hit
  rcases hit with rfl | rfl | rfl | rfl | rfl
  · exact ⟨by decide, by decide, by show 77 < 2 ^ 32; decide⟩
  · exact ⟨by decide, by decide, shopUpdate_fits (.inl rfl) (.inl rfl) (.inl rfl)⟩
  · exact ⟨by decide, by decide, by show 14 ∈ _; decide, by show 1 < 16; decide, by show 4 < 2 ^ 64; decide, by show 20 < 2 ^ 64; decide,
      by show 2 ^ 33 < 2 ^ 64; decide, by show 2 ^ 50 < 2 ^ 64; decide, nofun, by decide⟩
  · exact ⟨by decide, by decide, by show 11 ∈ _; decide, by show 1 < 16; decide, by show 5 < 2 ^ 64; decide, by show 20 < 2 ^ 64; decide,
      by show 2 ^ 33 < 2 ^ 64; decide, by show 2 ^ 50 < 2 ^ 64; decide, nofun, by decide⟩
  · exact ⟨by decide, by decide, by show 77 < 2 ^ 32; decide⟩

set_option maxRecDepth 4000 in
theorem rekey_ahead : Ahead rekeyLog := ⟨by decide, by decide, by decide, by decide, by decide, trivial⟩

theorem rekey_values (zone : Nat → Int) {k : Int} (hk : k = 8 ∨ k = 9) : KeyValues zone (columnsOf shopColumns 20) [b! "id"] [.int 4 k] :=
  .cons ⟨⟨shopId, by decide, rfl, rfl, by decide, by decide, rfl, rfl⟩, by decide, by rcases hk with rfl | rfl <;> decide,
    by rcases hk with rfl | rfl <;> decide⟩ .nil

theorem rekeyUndo_followed (env : Env) {k : Int} (hk : k = 8 ∨ k = 9) {kind no : Nat} (hkind : kind ≠ 12) (ho : no < 2 ^ 32) :
    Followed env shopRedo2 shopTables shopColumns (shopIndexes idKey) (shopFields idKey) (.record true 0 300 (.undoInsert (rekeyUndo kind k no))) none := by
  refine .notUpdate (t := ⟨b! "shop/t", 20, 5⟩) (names := [b! "id"]) (keys := [.int 4 k]) (by decide) rfl shop_keyed (rekey_values env.zone hk) rfl hkind ho
    (by show 20 < 2 ^ 32; decide) (shop_handled _ (by decide)) shop_trimmed ?_
  intro v hv
  cases List.mem_singleton.mp hv
  exact ⟨trivial, rfl⟩

theorem rekey_followed (env : Env) : All2 (Followed env shopRedo2 shopTables shopColumns (shopIndexes idKey) (shopFields idKey)) rekeyLog rekeyChanges :=
  .cons (.other nofun fun _ => trivial) (.cons (shopUpdate_followed env (.inl rfl) _ (by decide)) (.cons (rekeyUndo_followed env (.inl rfl) (by decide) (by decide))
    (.cons (rekeyUndo_followed env (.inr rfl) (by decide) (by decide)) (.cons (.other nofun fun _ => trivial) .nil))))

theorem rekey_undoOf (zone : Nat → Int) {k : Int} (hk : k = 8 ∨ k = 9) {kind no : Nat} {kinds : List Nat} (hkind : kind ∈ kinds) :
    UndoOf zone shopTables shopColumns (shopIndexes idKey) (shopFields idKey) kinds (b! "shop") (b! "t") [b! "id"] [.int 4 k]
      (.record true 0 300 (.undoInsert (rekeyUndo kind k no))) :=
  ⟨_, _, _, _, ⟨b! "shop/t", 20, 5⟩, _, rfl, by decide, rfl, rfl, shop_keyed, rekey_values zone hk, rfl, hkind⟩

def rekeyBefore : Tables := shopState [shopRow 7 (b! "bob"), shopRow 8 (b! "eve")]

/-- after the updates -/
def rekeyAfter (ff : FloatFmt) : Tables :=
  updateRows (b! "shop") (b! "t") (rekeyEight ff).old (rekeyEight ff).new
    (updateRows (b! "shop") (b! "t") ((shopChange2 7 (b! "bob")).keys ff) [(b! "name", .text (b! "ann"))] rekeyBefore)

theorem rekey_steps (env : Env) : Steps env.zone shopTables shopColumns (shopIndexes idKey) (shopFields idKey) shopCols idNames env.ff rekeyLog rekeyChanges
    [rekeyEight env.ff] rekeyBefore (rekeyAfter env.ff) := by
  refine .other nofun (.update (S1 := updateRows (b! "shop") (b! "t") ((shopChange2 7 (b! "bob")).keys env.ff) [(b! "name", .text (b! "ann"))] rekeyBefore)
    (followed_logs (shopUpdate_followed env (.inl rfl) _ (by decide))) ?_
    (.rekey (keys := [.int 4 8]) (keys' := [.int 4 9]) (rekey_undoOf env.zone (.inl rfl) (by decide)) (rekey_undoOf env.zone (.inr rfl) (by decide)) (.other nofun .nil)))
  refine ⟨rfl, (shopChange2_ordinary 7 (b! "bob")).columns, ?_, _, rfl, rfl⟩
  intro r hr hk s hs
  have hr : r ∈ [shopRow 7 (b! "bob"), shopRow 8 (b! "eve")] := hr
  cases List.mem_singleton.mp hs
  rcases List.mem_cons.mp hr with rfl | hr
  · rfl
  · cases List.mem_singleton.mp hr
    rw [shopRow_has] at hk
    exact absurd hk (by decide)

theorem rekey_mem {ch : Change} (h : some ch ∈ rekeyChanges) : ch = shopChange2 7 (b! "bob") := by
  simpa [rekeyChanges] using h

/-- the hypotheses of `C115_kept_partial`, and so of `C115_never` -/
theorem rekey_kept (env : Env) (spare : Nat) (sv : Server) : ∃ lines T, fromRedoFile env rekeyDisk shopRedo2 spare [] = .ok () lines ∧
    execUpdates sv shopCols (stdout lines) (rekeyAfter env.ff) = some T ∧
    (∀ db t, All2 (fun r r' => KeepsKey [rekeyEight env.ff] db t r → r' = r) (rekeyBefore db t) (T db t)) ∧ ([rekeyEight env.ff] = [] → T = rekeyBefore) :=
  C115_kept_partial env rekeyDisk shopRedo2 spare (shopFile idKey) shopTables shopColumns (shopIndexes idKey) (shopFields idKey) [b! "ib_logfile0"]
    [[rekeyLog.flatMap Item.enc]] rekeyLog rekeyChanges [rekeyEight env.ff] sv shopCols idNames rekeyBefore (rekeyAfter env.ff) rfl (shop_dictionary (.inl rfl)) (by decide)
    (by decide) rfl rekey_disk (by simp) rekey_fits shop_arranged (rekey_followed env)
    (fun ch hch _ => by
      rw [rekey_mem hch]
      exact shopChange2_plainly env (.inl rfl) (.inl rfl))
    rekey_ahead (by have := rekey_length; omega) shop2_cols
    (fun ch hch => by
      rw [rekey_mem hch]
      exact shop2_reads sv env.ff 8 _ (by simp [shopChanges2]))
    (fun ch hch => by
      rw [rekey_mem hch]
      rfl)
    (List.pairwise_singleton _ _) (rekey_steps env)

/-- the row 7 keeps its key -/
example (ff : FloatFmt) : KeepsKey [rekeyEight ff] (b! "shop") (b! "t") (shopRow 7 (b! "bob")) := by
  intro k hk _ _
  cases List.mem_singleton.mp hk
  exact (shopRow_has ff 8 7 (b! "eve") (b! "bob")).trans (by decide)

theorem rekey_never (env : Env) (spare : Nat) (sv : Server) : ∃ lines, fromRedoFile env rekeyDisk shopRedo2 spare [] = .ok () lines ∧
    (∀ T, ∃ T', execUpdates sv shopCols (stdout lines) T = some T' ∧ ∀ db t, keysOf idNames T' db t = keysOf idNames T db t) ∧
    ∀ S S' db t, keysOf idNames S' db t ≠ keysOf idNames S db t → execUpdates sv shopCols (stdout lines) S' ≠ some S :=
  C115_never env rekeyDisk shopRedo2 spare (shopFile idKey) shopTables shopColumns (shopIndexes idKey) (shopFields idKey) [b! "ib_logfile0"]
    [[rekeyLog.flatMap Item.enc]] rekeyLog rekeyChanges sv shopCols idNames rfl (shop_dictionary (.inl rfl)) (by decide)
    (by decide) rfl rekey_disk (by simp) rekey_fits shop_arranged (rekey_followed env)
    (fun ch hch _ => by
      rw [rekey_mem hch]
      exact shopChange2_plainly env (.inl rfl) (.inl rfl))
    rekey_ahead (by have := rekey_length; omega) shop2_cols
    (fun ch hch => by
      rw [rekey_mem hch]
      exact shop2_reads sv env.ff 8 _ (by simp [shopChanges2]))
    (fun ch hch _ => by
      rw [rekey_mem hch]
      exact shopChange2_ordinary 7 (b! "bob"))

theorem rekey_differ (ff : FloatFmt) : keysOf idNames (rekeyAfter ff) (b! "shop") (b! "t") ≠ keysOf idNames rekeyBefore (b! "shop") (b! "t") := by
  have h1 : keysOf idNames (rekeyAfter ff) (b! "shop") (b! "t") = [[.int 7], [.int 9]] := rfl
  have h2 : keysOf idNames rekeyBefore (b! "shop") (b! "t") = [[.int 7], [.int 8]] := rfl
  rw [h1, h2]
  decide

/-- **C115 is false of the code:** row 9 does not become row 8 again. -/
theorem C115_false : ¬ C115_statement := by
  intro h
  obtain ⟨lines, h1, h2⟩ := h testEnv rekeyDisk shopRedo2 0 (shopFile idKey) shopTables shopColumns (shopIndexes idKey) (shopFields idKey) [b! "ib_logfile0"]
    [[rekeyLog.flatMap Item.enc]] rekeyLog rekeyChanges [rekeyEight testEnv.ff] anyServer shopCols idNames rekeyBefore (rekeyAfter testEnv.ff) rfl
    (shop_dictionary (.inl rfl)) (by decide) (by decide) rfl rekey_disk (by simp) rekey_fits shop2_cols
    (fun ch hch => by
      rw [rekey_mem hch]
      exact shop2_reads anyServer testEnv.ff 8 _ (by simp [shopChanges2]))
    (fun ch hch => by
      rw [rekey_mem hch]
      rfl)
    (List.pairwise_singleton _ _) (rekey_steps testEnv)
  obtain ⟨lines', h3, _, h4⟩ := rekey_never testEnv 0 anyServer
  rw [h1] at h3
  injection h3 with _ h3
  rw [← h3] at h4
  exact h4 _ _ _ _ (rekey_differ testEnv.ff) h2

end Verif.Props
