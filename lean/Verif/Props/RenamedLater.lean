import Verif.Props.RedoEffect
/-!
# C114: tables that were renamed, rebuilt or dropped after the updates

The log has only the number of a table, and the dictionary is the present one.  RENAME TABLE keeps the number; TRUNCATE, OPTIMIZE and most kinds of
ALTER TABLE build the table anew under another number.
-/

namespace Verif.Props
open Verif Spec

/-- the table of this number, as it is called now -/
abbrev Now := Nat → Option (Bytes × Bytes)

/-- The change that an element of the log has, of a table as it is called now; nothing if there is no such table any more. -/
def presentChange (now : Now) : Item → Option Change → Option Change
  | .record _ _ _ (.undoInsert u), some ch => (now u.tableId).map fun n => { ch with db := n.1, table := n.2 }
  | _, _ => none

/-- the same columns in the same order -/
def SameDefinition (crs : List ColumnRow) (id : Nat) (crs0 : List ColumnRow) (id0 : Nat) : Prop :=
  (columnsOf crs id).map (fun c => (c.name, c.ftype, c.mtype, c.len)) = (columnsOf crs0 id0).map fun c => (c.name, c.ftype, c.mtype, c.len)

/-- What the element of the log has, if it was written under an earlier dictionary `trs0`, `crs0`, `irs0`, `frs0`. -/
def LogsThen (zone : Nat → Int) (trs : List TableRow) (crs : List ColumnRow) (now : Now) (it : Item) (ch : Option Change) : Prop :=
  ∃ trs0 crs0 irs0 frs0 ch0, Logs zone trs0 crs0 irs0 frs0 it ch0 ∧ ch = presentChange now it ch0 ∧
    ∀ b sp pg u, it = .record b sp pg (.undoInsert u) → match now u.tableId with
      | none => ∀ t ∈ trs, t.id ≠ u.tableId
      | some n => (∃ t ∈ trs, t.name = n.1 ++ b! "/" ++ n.2 ∧ SameDefinition crs t.id crs0 u.tableId) ∧ ∃ t0 ∈ trs0, t0.id = u.tableId

/-- **C114**, as stated: the output undoes the updates of all tables that exist now, also if these have been renamed or rebuilt since, under their present
names; and no others. -/
def C114_statement : Prop :=
  ∀ (env : Env) (fs : Bytes → File) (a : FromRedo) (spare : Nat) (sys : Bytes) (trs : List TableRow) (crs : List ColumnRow)
    (irs : List IndexRow) (frs : List FieldRow) (names : List Bytes) (parts : List (List Bytes)) (its : List Item) (chs : List (Option Change)) (now : Now),
    a.sysFile = .ok sys → Dictionary sys trs crs irs frs → names ≠ [] → (∀ n ∈ names, 44 ∉ n) → a.redoFile = commaList names →
    All2 (fun chunks n => ∃ content, fs n = .ok content ∧ IsLogFile chunks content) parts names →
    parts.flatten.flatten = its.flatMap Item.enc → (∀ it ∈ its, it.Fits) →
    All2 (LogsThen env.zone trs crs now) its chs →
    ∀ out, ∃ lines, fromRedoFile env fs a spare out = .ok () (out ++ lines) ∧ All2 (Undoes env.ff) lines ((chs.filterMap id).filter (Wanted a))

/-! ### Tables that still have their number -/

/-- the table has the same rows in the dictionary as then, apart from its name -/
structure Unaltered (crs crs0 : List ColumnRow) (irs irs0 : List IndexRow) (frs frs0 : List FieldRow) (id : Nat) : Prop where
  columns : columnsOf crs id = columnsOf crs0 id
  indexes : ∀ x : IndexRow, x.tableId = id → (x ∈ irs ↔ x ∈ irs0)
  fields : ∀ x ∈ irs0, x.tableId = id → fieldsOf frs x = fieldsOf frs0 x

section
variable {crs crs0 : List ColumnRow} {irs irs0 : List IndexRow} {frs frs0 : List FieldRow} {id : Nat}

theorem clusteredIndex_now (h : Unaltered crs crs0 irs irs0 frs frs0 id) {r : IndexRow} (hr : ClusteredIndex irs0 id r) : ClusteredIndex irs id r :=
  ⟨(h.indexes r hr.2.1).mpr hr.1, hr.2.1, hr.2.2.1, fun x hx hi => hr.2.2.2 x ((h.indexes x hi).mp hx) hi⟩

theorem clusteredBy_now (h : Unaltered crs crs0 irs irs0 frs frs0 id) {r : IndexRow} (hr : ClusteredBy irs0 id r) : ClusteredBy irs id r :=
  ⟨(h.indexes r hr.2.1).mpr hr.1, hr.2.1, fun x hx hi => hr.2.2 x ((h.indexes x hi).mp hx) hi⟩

theorem layout_now (h : Unaltered crs crs0 irs irs0 frs frs0 id) {l : List Column} (hl : Layout irs0 frs0 id (columnsOf crs0 id) l) :
    Layout irs frs id (columnsOf crs id) l := by
  rw [h.columns]
  cases hl with
  | generated hr hu => exact .generated (clusteredIndex_now h hr) hu
  | key hr hu hn hk =>
    have e := h.fields _ hr.1 hr.2.1
    rw [← e] at hn hk ⊢
    exact .key (clusteredIndex_now h hr) hu hn hk

theorem keyed_now {t t0 : TableRow} (h : Unaltered crs crs0 irs irs0 frs frs0 t0.id) (ht : t.id = t0.id) {l : List Column} {names : List Bytes}
    (hk : Keyed crs0 irs0 frs0 t0 l names) : Keyed crs irs frs t l names := by
  obtain ⟨⟨r, h1, h2, h3⟩, h4, h5⟩ := hk
  refine ⟨⟨r, ?_, h2, by rw [h.fields r h1.1 h1.2.1, h3]⟩, ?_, ?_⟩
  · rw [ht]
    exact clusteredIndex_now h h1
  · rw [ht]
    exact layout_now h h4
  · rw [ht, h.columns]
    exact h5

theorem handled_now (h : Unaltered crs crs0 irs irs0 frs frs0 id) (hh : Handled irs0 frs0 crs0 id) : Handled irs frs crs id := by
  obtain ⟨r, h1, h2, h3⟩ := hh
  refine ⟨r, clusteredBy_now h h1, h2, ?_⟩
  rw [h.columns, h.fields r h1.1 h1.2.1]
  exact h3

theorem trimmed_now (h : Unaltered crs crs0 irs irs0 frs frs0 id) (ht : Trimmed irs0 id) : Trimmed irs id := fun x hx hi => ht x ((h.indexes x hi).mp hx) hi

end

/-- The names of the tables that still have their numbers. -/
def NumbersNow (trs : List TableRow) (now : Now) : Prop :=
  ∀ id, match now id with
    | none => ∀ t ∈ trs, t.id ≠ id
    | some n => ∃ t ∈ trs, t.id = id ∧ t.name = n.1 ++ b! "/" ++ n.2

/-- the same command for all tables -/
def anyTable (a : FromRedo) : FromRedo := { a with db := [], table := [] }

theorem wanted_any (a : FromRedo) (ch : Change) : Wanted (anyTable a) ch = true := rfl

/-- As `LogsThen`, for records that the tool follows; a table that still has its number is not altered. -/
def FollowedThen (env : Env) (a : FromRedo) (trs : List TableRow) (crs : List ColumnRow) (irs : List IndexRow) (frs : List FieldRow) (now : Now)
    (it : Item) (ch : Option Change) : Prop :=
  ∃ trs0 crs0 irs0 frs0 ch0, Followed env (anyTable a) trs0 crs0 irs0 frs0 it ch0 ∧ ch = presentChange now it ch0 ∧
    ∀ b sp pg u, it = .record b sp pg (.undoInsert u) → ∀ t ∈ trs, t.id = u.tableId →
      (∃ t0 ∈ trs0, t0.id = u.tableId) ∧ Unaltered crs crs0 irs irs0 frs frs0 u.tableId

theorem followed_now {env : Env} {a : FromRedo} {trs : List TableRow} {crs : List ColumnRow} {irs : List IndexRow} {frs : List FieldRow} {now : Now}
    (hnow : NumbersNow trs now) {it : Item} {ch : Option Change} (h : FollowedThen env a trs crs irs frs now it ch)
    (hw : ∀ c, ch = some c → Wanted a c = false → c.table ≠ a.table) : Followed env a trs crs irs frs it ch := by
  obtain ⟨trs0, crs0, irs0, frs0, ch0, hf, hch, hk⟩ := h
  cases hf with
  | other h1 h2 =>
    have : ch = none := by
      rw [hch]
      unfold presentChange
      split <;> simp_all
    rw [this]
    exact .other h1 h2
  | @unknown b sp pg u h1 h2 h3 =>
    have : ch = none := hch
    rw [this]
    refine .unknown (fun t ht e => ?_) h2 h3
    obtain ⟨⟨t0, h4, h5⟩, _⟩ := hk _ _ _ _ rfl t ht e
    exact h1 t0 h4 h5
  | @notUpdate b sp pg u t0 l names keys h1 h2 h3 h4 h5 h6 h7 h8 h9 h10 h11 =>
    have : ch = none := hch
    rw [this]
    by_cases he : ∃ t ∈ trs, t.id = u.tableId
    · obtain ⟨t, ht, e⟩ := he
      obtain ⟨_, hu⟩ := hk _ _ _ _ rfl t ht e
      rw [← h2] at hu
      have e' : t.id = t0.id := by rw [e, h2]
      refine .notUpdate ht e (keyed_now hu e' h3) ?_ h5 h6 h7 h8 ?_ ?_ h11
      · rw [e', hu.columns]
        exact h4
      · rw [e']
        exact handled_now hu h9
      · rw [e']
        exact trimmed_now hu h10
    · exact .unknown (fun t ht e => he ⟨t, ht, e⟩) h7 h8
  | @update b sp pg u t0 db table l names keys olds sets h1 h2 h3 h4 h5 h6 h7 h8 h9 h10 h11 h12 h13 h14 h15 =>
    have hn := hnow u.tableId
    have hch : ch = (now u.tableId).map fun n => ⟨n.1, n.2, sets, names.zip keys⟩ := hch
    cases hnu : now u.tableId with
    | none =>
      rw [hnu] at hn hch
      rw [hch]
      exact .unknown hn h8 h9
    | some n =>
      rw [hnu] at hn hch
      obtain ⟨t, ht, e, hname⟩ := hn
      obtain ⟨_, hu⟩ := hk _ _ _ _ rfl t ht e
      rw [← h2] at hu
      have e' : t.id = t0.id := by rw [e, h2]
      rw [hch]
      refine .update ht e hname (keyed_now hu e' h4) ?_ h6 h7 h8 h9 ?_ ?_ h12 h13 ?_ fun _ => h15 rfl
      · rw [e', hu.columns]
        exact h5
      · rw [e']
        exact handled_now hu h10
      · rw [e']
        exact trimmed_now hu h11
      · exact hw _ hch

theorem followed_now_all {env : Env} {a : FromRedo} {trs : List TableRow} {crs : List ColumnRow} {irs : List IndexRow} {frs : List FieldRow} {now : Now}
    (hnow : NumbersNow trs now) {its : List Item} {chs : List (Option Change)} (h : All2 (FollowedThen env a trs crs irs frs now) its chs)
    (hw : ∀ c, some c ∈ chs → Wanted a c = false → c.table ≠ a.table) : All2 (Followed env a trs crs irs frs) its chs := by
  induction h with
  | nil => exact .nil
  | cons h _ ih => exact .cons (followed_now hnow h fun c hc => hw c (by rw [hc]; exact List.mem_cons_self)) (ih fun c hc => hw c (List.mem_cons_of_mem _ hc))

/-- Exactly the lines that are printed: one for each update of a table whose number the dictionary still has, with its present name. -/
theorem C114_exact (env : Env) (fs : Bytes → File) (a : FromRedo) (spare : Nat) (sys : Bytes) (trs : List TableRow) (crs : List ColumnRow)
    (irs : List IndexRow) (frs : List FieldRow) (names : List Bytes) (parts : List (List Bytes)) (its : List Item) (chs : List (Option Change)) (now : Now)
    (hsys : a.sysFile = .ok sys) (hdict : Dictionary sys trs crs irs frs) (hne : names ≠ []) (hn : ∀ n ∈ names, 44 ∉ n)
    (ha : a.redoFile = commaList names) (hp : All2 (fun chunks n => ∃ content, fs n = .ok content ∧ IsLogFile chunks content) parts names)
    (hs : parts.flatten.flatten = its.flatMap Item.enc) (hf : ∀ it ∈ its, it.Fits)
    (harr : ∀ t ∈ trs, UsualKeys irs frs crs t.id) (hnow : NumbersNow trs now) (hfl : All2 (FollowedThen env a trs crs irs frs now) its chs)
    (hw : ∀ c, some c ∈ chs → Wanted a c = false → c.table ≠ a.table)
    (hah : Ahead its) (hlen : (its.flatMap Item.enc).length < 2 ^ 32) (out : Out) :
    fromRedoFile env fs a spare out = .ok () (out ++ ((chs.filterMap id).filter (Wanted a)).map (Change.text env.ff)) :=
  C58_lines env fs a spare sys trs crs irs frs names parts its chs hsys hdict hne hn ha hp hs hf harr (followed_now_all hnow hfl hw) hah hlen out

/-- **C114, in part:** tables that were renamed or dropped.  Missing: tables that were rebuilt (`C114_rebuilt`), and what is missing in C58. -/
theorem C114_renamed_partial (env : Env) (fs : Bytes → File) (a : FromRedo) (spare : Nat) (sys : Bytes) (trs : List TableRow) (crs : List ColumnRow)
    (irs : List IndexRow) (frs : List FieldRow) (names : List Bytes) (parts : List (List Bytes)) (its : List Item) (chs : List (Option Change)) (now : Now)
    (hsys : a.sysFile = .ok sys) (hdict : Dictionary sys trs crs irs frs) (hne : names ≠ []) (hn : ∀ n ∈ names, 44 ∉ n)
    (ha : a.redoFile = commaList names) (hp : All2 (fun chunks n => ∃ content, fs n = .ok content ∧ IsLogFile chunks content) parts names)
    (hs : parts.flatten.flatten = its.flatMap Item.enc) (hf : ∀ it ∈ its, it.Fits)
    (harr : ∀ t ∈ trs, UsualKeys irs frs crs t.id) (hnow : NumbersNow trs now) (hfl : All2 (FollowedThen env a trs crs irs frs now) its chs)
    (hw : ∀ c, some c ∈ chs → Wanted a c = false → c.table ≠ a.table) (hplain : ∀ ch, some ch ∈ chs → Wanted a ch = true → Plainly env.ff ch)
    (hah : Ahead its) (hlen : (its.flatMap Item.enc).length < 2 ^ 32) (out : Out) :
    ∃ lines, fromRedoFile env fs a spare out = .ok () (out ++ lines) ∧ All2 (Undoes env.ff) lines ((chs.filterMap id).filter (Wanted a)) :=
  C58_command_partial env fs a spare sys trs crs irs frs names parts its chs hsys hdict hne hn ha hp hs hf harr (followed_now_all hnow hfl hw) hplain hah
    hlen out

/-- Of tables whose numbers the dictionary does not have, nothing is printed, whatever they are called and whatever was updated. -/
theorem C114_rebuilt (env : Env) (fs : Bytes → File) (a : FromRedo) (spare : Nat) (sys : Bytes) (trs : List TableRow) (crs : List ColumnRow)
    (irs : List IndexRow) (frs : List FieldRow) (names : List Bytes) (parts : List (List Bytes)) (its : List Item)
    (hsys : a.sysFile = .ok sys) (hdict : Dictionary sys trs crs irs frs) (hne : names ≠ []) (hn : ∀ n ∈ names, 44 ∉ n)
    (ha : a.redoFile = commaList names) (hp : All2 (fun chunks n => ∃ content, fs n = .ok content ∧ IsLogFile chunks content) parts names)
    (hs : parts.flatten.flatten = its.flatMap Item.enc) (hf : ∀ it ∈ its, it.Fits)
    (harr : ∀ t ∈ trs, UsualKeys irs frs crs t.id)
    (hgone : ∀ it ∈ its, (∀ b sp pg u, it = .record b sp pg (.undoInsert u) → (∀ t ∈ trs, t.id ≠ u.tableId) ∧ u.undoNo < 2 ^ 32 ∧ u.tableId < 2 ^ 32) ∧
      ((∀ b sp pg u, it ≠ .record b sp pg (.undoInsert u)) → ∀ cfg, InSync cfg it))
    (hah : Ahead its) (hlen : (its.flatMap Item.enc).length < 2 ^ 32) (out : Out) : fromRedoFile env fs a spare out = .ok () out := by
  have h := C58_lines env fs a spare sys trs crs irs frs names parts its (its.map fun _ => none) hsys hdict hne hn ha hp hs hf harr (by
    clear * - hgone
    induction its with
    | nil => exact .nil
    | cons it its ih =>
      refine .cons ?_ (ih fun x hx => hgone x (List.mem_cons_of_mem _ hx))
      obtain ⟨h1, h2⟩ := hgone it List.mem_cons_self
      by_cases hu : ∃ b sp pg u, it = .record b sp pg (.undoInsert u)
      · obtain ⟨b, sp, pg, u, rfl⟩ := hu
        obtain ⟨h3, h4, h5⟩ := h1 b sp pg u rfl
        exact .unknown h3 h4 h5
      · have hu' : ∀ b sp pg u, it ≠ .record b sp pg (.undoInsert u) := fun b sp pg u e => hu ⟨b, sp, pg, u, e⟩
        exact .other hu' (h2 hu')) hah hlen out
  have e : (its.map fun _ => (none : Option Change)).filterMap id = [] := by
    clear * -
    induction its with
    | nil => rfl
    | cons _ _ ih => exact ih
  rw [h, e]
  simp

/-! ### Examples -/

def shopNow : Now := fun id => if id = 20 then some (b! "shop", b! "t") else none

theorem shop_names_now : NumbersNow shopTables shopNow := by
  intro id
  unfold shopNow
  by_cases h : id = 20
  · rw [if_pos h]
    subst h
    exact ⟨_, List.mem_cons_self, rfl, rfl⟩
  · rw [if_neg h]
    intro t ht
    cases List.mem_singleton.mp ht
    exact fun e => h e.symm

theorem shop_unaltered : Unaltered shopColumns shopColumns (shopIndexes idKey) (shopIndexes idKey) (shopFields idKey) (shopFields idKey) 20 :=
  ⟨rfl, fun _ _ => .rfl, fun _ _ _ => rfl⟩

theorem shop_then (env : Env) {k : Int} (hk : SevenEight k) (name : Bytes) {no : Nat} (ho : no < 2 ^ 32) (past : Bytes) :
    FollowedThen env shopRedo2 shopTables shopColumns (shopIndexes idKey) (shopFields idKey) shopNow (.record true 0 300 (.undoInsert (shopUpdate k name no)))
      (some (shopChange2 k name)) := by
  refine ⟨[⟨b! "shop" ++ b! "/" ++ past, 20, 5⟩], shopColumns, shopIndexes idKey, shopFields idKey, some { shopChange2 k name with table := past }, ?_, rfl, ?_⟩
  · refine .update (t := ⟨b! "shop" ++ b! "/" ++ past, 20, 5⟩) (names := [b! "id"]) (keys := [.int 4 k]) (olds := [(3, some (.varchar name))]) List.mem_cons_self rfl rfl
      (keyed_now (t := ⟨b! "shop" ++ b! "/" ++ past, 20, 5⟩) (t0 := ⟨b! "shop/t", 20, 5⟩) shop_unaltered rfl shop_keyed)
      (shop2_key env hk) (shop_old_values env name) ⟨rfl, rfl, rfl⟩ ho (by show 20 < 2 ^ 32; decide) (shop_handled ⟨b! "shop/t", 20, 5⟩ (by decide)) shop_trimmed ?_ ?_ nofun ?_
    · intro v hv
      cases List.mem_singleton.mp hv
      exact ⟨trivial, rfl⟩
    · intro e he v hv
      cases List.mem_singleton.mp he
      cases hv
      trivial
    · intro _
      refine ⟨?_, ?_⟩
      · intro v hv
        cases List.mem_singleton.mp hv
        exact ⟨trivial, rfl, nofun⟩
      · intro e he v hv
        cases List.mem_singleton.mp he
        cases hv
        exact ⟨trivial, rfl, nofun⟩
  · rintro b sp pg u e t ht e2
    cases e
    exact ⟨⟨_, List.mem_cons_self, rfl⟩, shop_unaltered⟩

theorem other_then (env : Env) (a : FromRedo) (trs : List TableRow) (crs : List ColumnRow) (irs : List IndexRow) (frs : List FieldRow) (now : Now) {it : Item}
    (h : ∀ b sp pg u, it ≠ .record b sp pg (.undoInsert u)) (hs : ∀ cfg, InSync cfg it) : FollowedThen env a trs crs irs frs now it none := by
  refine ⟨[], [], [], [], none, .other h hs, ?_, fun b sp pg u e => absurd e (h b sp pg u)⟩
  unfold presentChange
  split
  · next e => cases e
  · rfl

/-- the hypotheses of `C114_renamed_partial` and so of `C114_exact`: the table was called `u` when row 7 was updated and `t` when row 8 was -/
example (env : Env) (spare : Nat) := C114_renamed_partial env (shopDisk2 8) shopRedo2 spare (shopFile idKey) shopTables shopColumns (shopIndexes idKey) (shopFields idKey)
    [b! "ib_logfile0"] [[(shopLog2 8).flatMap Item.enc]] (shopLog2 8) (shopChanges2 8) shopNow rfl (shop_dictionary (.inl rfl)) (by decide)
    (by decide) rfl (shop2_disk (.inr rfl)) (by simp) (shop2_fits (.inr rfl)) shop_arranged shop_names_now
    (.cons (other_then _ _ _ _ _ _ _ nofun fun _ => trivial) (.cons (shop_then env (.inl rfl) _ (by decide) (b! "u")) (.cons (shop_then env (.inr rfl) _ (by decide) (b! "t"))
      (.cons (other_then _ _ _ _ _ _ _ nofun fun _ => trivial) .nil))))
    (fun c hc h => by
      rcases shop2_mem hc with rfl | rfl
      · exact absurd (show Wanted shopRedo2 (shopChange2 7 (b! "bob")) = true from rfl) (by rw [h]; decide)
      · exact absurd (show Wanted shopRedo2 (shopChange2 8 (b! "eve")) = true from rfl) (by rw [h]; decide))
    (fun ch hch _ => by
      rcases shop2_mem hch with rfl | rfl
      · exact shopChange2_plainly env (.inl rfl) (.inl rfl)
      · exact shopChange2_plainly env (.inr rfl) (.inr rfl))
    (shop2_ahead (.inr rfl)) (by have := shop2_length (.inr rfl : SevenEight 8); omega)

/-- the table had the number 15 when the name of row 7, `bob`, was changed -/
def rebuiltUndo : Undo := { shopUpdate 7 (b! "bob") 3 with tableId := 15 }

def rebuiltLog : List Item :=
  [.record false 5 3 (.bytes2 120 77), .record true 0 300 (.undoInsert rebuiltUndo), .record true 5 3 (.bytes2 120 77)]

def rebuiltDisk (_ : Bytes) : File := .ok (logFile (rebuiltLog.flatMap Item.enc))

set_option maxRecDepth 4000 in
theorem rebuilt_length : (rebuiltLog.flatMap Item.enc).length ≤ 300 := by decide

theorem rebuilt_disk : All2 (fun chunks n => ∃ content, rebuiltDisk n = .ok content ∧ IsLogFile chunks content) [[rebuiltLog.flatMap Item.enc]] [b! "ib_logfile0"] :=
  .cons ⟨_, rfl, logFile_is _ (by have := rebuilt_length; omega)⟩ .nil

theorem rebuilt_fits : ∀ it ∈ rebuiltLog, it.Fits := by
  intro it hit
  simp only [rebuiltLog, List.mem_cons, List.not_mem_nil, or_false] at hit
  rcases hit with rfl | rfl | rfl
  · exact ⟨by decide, by decide, by show 77 < 2 ^ 32; decide⟩
  · refine ⟨by decide, by decide, by show 12 ∈ _; decide, by show 1 < 16; decide, by show 3 < 2 ^ 64; decide, by show 15 < 2 ^ 64; decide,
      by show 2 ^ 33 < 2 ^ 64; decide, by show 2 ^ 50 < 2 ^ 64; decide, ?_, ?_⟩
    · intro f hf
      cases List.mem_singleton.mp hf
      refine ⟨by show 3 < 2 ^ 32; decide, ?_⟩
      rintro v ⟨⟩
      decide
    · decide
  · exact ⟨by decide, by decide, by show 77 < 2 ^ 32; decide⟩

set_option maxRecDepth 4000 in
theorem rebuilt_ahead : Ahead rebuiltLog := ⟨by decide, by decide, by decide, trivial⟩

/-- the hypotheses of `C114_rebuilt` -/
theorem rebuilt_nothing (env : Env) (spare : Nat) (out : Out) : fromRedoFile env rebuiltDisk shopRedo2 spare out = .ok () out :=
  C114_rebuilt env rebuiltDisk shopRedo2 spare (shopFile idKey) shopTables shopColumns (shopIndexes idKey) (shopFields idKey) [b! "ib_logfile0"]
    [[rebuiltLog.flatMap Item.enc]] rebuiltLog rfl (shop_dictionary (.inl rfl)) (by decide) (by decide) rfl rebuilt_disk (by simp) rebuilt_fits shop_arranged
    (by
      intro it hit
      simp only [rebuiltLog, List.mem_cons, List.not_mem_nil, or_false] at hit
      rcases hit with rfl | rfl | rfl
      · exact ⟨nofun, fun _ _ => trivial⟩
      · refine ⟨?_, fun h => absurd rfl (h _ _ _ _)⟩
        rintro b sp pg u ⟨⟩
        refine ⟨?_, by show 3 < 2 ^ 32; decide, by show 15 < 2 ^ 32; decide⟩
        intro t ht
        cases List.mem_singleton.mp ht
        decide
      · exact ⟨nofun, fun _ _ => trivial⟩) rebuilt_ahead (by have := rebuilt_length; omega) out

/-- the dictionary before the table was rebuilt -/
def pastTables : List TableRow := [⟨b! "shop/t", 15, 4⟩]
def pastColumns : List ColumnRow := [⟨15, 0, b! "id", 6, 1283, 4⟩, ⟨15, 1, b! "name", 12, 2162703, 30⟩]
def pastIndexes : List IndexRow := [⟨15, 25, b! "PRIMARY", 1, 3⟩]
def pastFields : List FieldRow := [⟨25, 0, b! "id"⟩]

def pastId : Column := { shopId with tableId := 15 }
def pastName : Column := { shopName with tableId := 15 }

theorem past_keyed : Keyed pastColumns pastIndexes pastFields ⟨b! "shop/t", 15, 4⟩ [pastId, trxColumn 15 1, rollColumn 15 2, pastName] [b! "id"] where
  index := ⟨⟨15, 25, b! "PRIMARY", 1, 3⟩, by decide, by decide, by decide⟩
  layout := .key (r := ⟨15, 25, b! "PRIMARY", 1, 3⟩) (by decide) (by decide) (by decide) (by decide)
  names := by decide

theorem past_logs (zone : Nat → Int) : Logs zone pastTables pastColumns pastIndexes pastFields (.record true 0 300 (.undoInsert rebuiltUndo))
    (some (shopChange2 7 (b! "bob"))) := by
  refine .update (t := ⟨b! "shop/t", 15, 4⟩) (names := [b! "id"]) (keys := [.int 4 7]) (olds := [(3, some (.varchar (b! "bob")))]) (by decide) rfl rfl past_keyed ?_ ?_
    ⟨rfl, rfl, rfl⟩
  · exact .cons ⟨⟨pastId, by decide, rfl, rfl, by decide, by decide, rfl, rfl⟩, by decide, by decide, by decide⟩ .nil
  · refine .cons ⟨pastName, rfl, rfl, ?_⟩ .nil
    rintro v ⟨⟩
    exact ⟨rfl, trivial⟩

def rebuiltNow : Now := fun id => if id = 15 then some (b! "shop", b! "t") else none

/-- **C114 is false of the code:** the updates from before the table was rebuilt are left out. -/
theorem C114_false : ¬ C114_statement := by
  intro h
  have other : ∀ {it : Item}, (∀ b sp pg u, it ≠ .record b sp pg (.undoInsert u)) → presentChange rebuiltNow it none = none →
      LogsThen testEnv.zone shopTables shopColumns rebuiltNow it none := fun hi hn =>
    ⟨[], [], [], [], none, .other hi, hn.symm, fun b sp pg u e => absurd e (hi b sp pg u)⟩
  obtain ⟨lines, h1, h2⟩ := h testEnv rebuiltDisk shopRedo2 0 (shopFile idKey) shopTables shopColumns (shopIndexes idKey) (shopFields idKey) [b! "ib_logfile0"]
    [[rebuiltLog.flatMap Item.enc]] rebuiltLog [none, some (shopChange2 7 (b! "bob")), none] rebuiltNow rfl (shop_dictionary (.inl rfl)) (by decide) (by decide) rfl
    rebuilt_disk (by simp) rebuilt_fits
    (.cons (other nofun rfl) (.cons ⟨pastTables, pastColumns, pastIndexes, pastFields, _, past_logs _, rfl, by
      rintro b sp pg u ⟨⟩
      exact ⟨⟨⟨b! "shop/t", 20, 5⟩, List.mem_cons_self, rfl, rfl⟩, ⟨b! "shop/t", 15, 4⟩, List.mem_cons_self, rfl⟩⟩ (.cons (other nofun rfl) .nil))) []
  rw [rebuilt_nothing] at h1
  injection h1 with _ h1
  have h1 : lines = [] := by simpa using h1.symm
  rw [h1] at h2
  have h2 : All2 (Undoes testEnv.ff) [] [shopChange2 7 (b! "bob")] := h2
  cases h2

end Verif.Props
