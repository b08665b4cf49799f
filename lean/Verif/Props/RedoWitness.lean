import Verif.Props.DataWitness
import Verif.Props.RedoFile
/-!
# C58: log files of a table

The table of `DictWitness`, and a log in two files with an update of its row 7, whose name was `name` before.
-/

namespace Verif.Props
open Verif Spec

def shopUndo (kind : Nat) (name : Bytes) : Undo :=
  ⟨kind, 1, 3, 20, 0, 2 ^ 33, 2 ^ 50, [intEnc 4 7], if kind = 12 then [(3, some name)] else [], []⟩

/-- a page is written, the row is inserted, then updated, then a row of an unknown table, then a page is written -/
def shopLog (name : Bytes) : List Item :=
  [.record false 5 3 (.bytes2 120 77), .record false 0 300 (.undoInsert (shopUndo 11 name)), .checkpoint (2 ^ 40),
    .record true 0 300 (.undoInsert (shopUndo 12 name)), .record true 0 300 (.undoInsert { shopUndo 12 name with tableId := 99 }),
    .record true 5 3 (.bytes2 120 77)]

def shopChange (name : Bytes) : Change := ⟨b! "shop", b! "t", [(b! "name", some (.varchar name))], [(b! "id", .int 4 7)]⟩

def shopChanges (name : Bytes) : List (Option Change) := [none, none, none, some (shopChange name), none, none]

def shopStream (name : Bytes) : Bytes := (shopLog name).flatMap Item.enc

/-- the log is cut in the middle of a record -/
def shopParts (name : Bytes) : List (List Bytes) := [[(shopStream name).take 50], [(shopStream name).drop 50]]

def logFile (chunk : Bytes) : Bytes := zeroPreamble.bytes ++ [blockOf [0, 0, 0, 1] [0, 12] [0, 0, 0, 0] [1, 2, 3, 4] chunk].flatten ++ []

def shopDisk (name : Bytes) (n : Bytes) : File :=
  if n = b! "ib_logfile0" then .ok (logFile ((shopStream name).take 50)) else .ok (logFile ((shopStream name).drop 50))

def shopRedo : FromRedo := { sysFile := .ok (shopFile idKey), redoFile := b! "ib_logfile0,ib_logfile1", db := b! "shop", table := [] }

def ShopName (name : Bytes) : Prop := name = b! "bob" ∨ name = b! "it's" ∨ name = b! "'; drop table t; select '"

theorem logFile_is (chunk : Bytes) (h : chunk.length ≤ 496) : IsLogFile [chunk] (logFile chunk) :=
  ⟨zeroPreamble, _, [], zeroPreamble_valid, .cons (blockOf_is _ _ _ _ chunk rfl rfl rfl rfl h) .nil, Or.inl rfl, rfl⟩

set_option maxRecDepth 4000 in
theorem shopStream_length {name : Bytes} (hn : ShopName name) : (shopStream name).length ≤ 300 := by
  rcases hn with rfl | rfl | rfl <;> decide

theorem shop_disk {name : Bytes} (hn : ShopName name) :
    All2 (fun chunks n => ∃ content, shopDisk name n = .ok content ∧ IsLogFile chunks content) (shopParts name) [b! "ib_logfile0", b! "ib_logfile1"] := by
  have h := shopStream_length hn
  refine .cons ⟨_, if_pos rfl, logFile_is _ ?_⟩ (.cons ⟨_, if_neg (by decide), logFile_is _ ?_⟩ .nil)
  · rw [List.length_take]; omega
  · rw [List.length_drop]; omega

theorem shop_cut (name : Bytes) : (shopParts name).flatten.flatten = (shopLog name).flatMap Item.enc := by
  unfold shopParts
  simp [shopStream]

theorem shop_undo_fits {name : Bytes} (hn : ShopName name) (kind tid : Nat) (hk : kind = 11 ∨ kind = 12) (ht : tid = 20 ∨ tid = 99) :
    ({ shopUndo kind name with tableId := tid } : Undo).Fits := by
  refine ⟨by show kind ∈ _; rcases hk with rfl | rfl <;> decide, by show 1 < 16; decide, by show 3 < 2 ^ 64; decide,
    by show tid < 2 ^ 64; rcases ht with rfl | rfl <;> decide,
    by show 2 ^ 33 < 2 ^ 64; decide, by show 2 ^ 50 < 2 ^ 64; decide, ?_, ?_⟩
  · intro f hf
    rcases hk with rfl | rfl
    · cases hf
    · have : f = (3, some name) := List.mem_singleton.mp hf
      subst this
      refine ⟨by show 3 < 2 ^ 32; decide, ?_⟩
      rintro v ⟨⟩
      rcases hn with rfl | rfl | rfl <;> decide
  · rcases hk with rfl | rfl <;> rcases ht with rfl | rfl <;> rcases hn with rfl | rfl | rfl <;> decide

theorem shop_log_fits {name : Bytes} (hn : ShopName name) : ∀ it ∈ shopLog name, it.Fits := by
  intro it hit
  simp only [shopLog, List.mem_cons, List.not_mem_nil, or_false] at hit
  rcases hit with rfl | rfl | rfl | rfl | rfl | rfl
  · exact ⟨by decide, by decide, by show 77 < 2 ^ 32; decide⟩
  · exact ⟨by decide, by decide, shop_undo_fits hn 11 20 (.inl rfl) (.inl rfl)⟩
  · trivial
  · exact ⟨by decide, by decide, shop_undo_fits hn 12 20 (.inr rfl) (.inl rfl)⟩
  · exact ⟨by decide, by decide, shop_undo_fits hn 12 99 (.inr rfl) (.inr rfl)⟩
  · exact ⟨by decide, by decide, by show 77 < 2 ^ 32; decide⟩

theorem shop_keyed : Keyed shopColumns (shopIndexes idKey) (shopFields idKey) ⟨b! "shop/t", 20, 5⟩ (shopLayout 20) [b! "id"] where
  index := ⟨⟨20, 30, b! "PRIMARY", 1, 3⟩, by decide, by decide, by decide⟩
  layout := shop_layout _ (by decide)
  names := by decide

theorem shop_key_values (env : Env) : KeyValues env.zone (columnsOf shopColumns 20) [b! "id"] [.int 4 7] :=
  .cons ⟨⟨shopId, by decide, rfl, rfl, by decide, by decide, rfl, rfl⟩, by decide, by decide, by decide⟩ .nil

theorem shop_old_values (env : Env) (name : Bytes) :
    OldValues env.zone (shopLayout 20) [(3, some (.varchar name))] [(b! "name", some (.varchar name))] := by
  refine .cons ⟨shopName, rfl, rfl, ?_⟩ .nil
  rintro v ⟨⟩
  exact ⟨rfl, trivial⟩

theorem shop_trimmed : Trimmed (shopIndexes idKey) 20 := by
  intro x hx _
  cases List.mem_singleton.mp hx
  decide

theorem shop_followed (env : Env) (name : Bytes) :
    All2 (Followed env shopRedo shopTables shopColumns (shopIndexes idKey) (shopFields idKey)) (shopLog name) (shopChanges name) := by
  refine .cons (.other nofun fun _ => trivial) (.cons ?_ (.cons (.other nofun fun _ => trivial) (.cons ?_ (.cons ?_ (.cons (.other nofun fun _ => trivial) .nil)))))
  · exact .notUpdate (t := ⟨b! "shop/t", 20, 5⟩) (keys := [.int 4 7]) (by decide) rfl shop_keyed (shop_key_values env) rfl (by show 11 ≠ 12; decide)
      (by show 3 < 2 ^ 32; decide) (by show 20 < 2 ^ 32; decide) (shop_handled _ (by decide)) shop_trimmed (by
        intro v hv
        cases List.mem_singleton.mp hv
        exact ⟨trivial, rfl⟩)
  · refine .update (t := ⟨b! "shop/t", 20, 5⟩) (names := [b! "id"]) (keys := [.int 4 7]) (olds := [(3, some (.varchar name))]) (by decide) rfl rfl shop_keyed
      (shop_key_values env) (shop_old_values env name) ⟨rfl, rfl, rfl⟩
      (by show 3 < 2 ^ 32; decide) (by show 20 < 2 ^ 32; decide) (shop_handled _ (by decide)) shop_trimmed ?_ ?_ ?_ ?_
    · intro v hv
      cases List.mem_singleton.mp hv
      exact ⟨trivial, rfl⟩
    · intro e he v hv
      cases List.mem_singleton.mp he
      cases hv
      trivial
    · intro h
      have : Wanted shopRedo ⟨b! "shop", b! "t", [(b! "name", some (.varchar name))], [b! "id"].zip [.int 4 7]⟩ = true := rfl
      rw [this] at h
      cases h
    · intro _
      refine ⟨?_, ?_⟩
      · intro v hv
        cases List.mem_singleton.mp hv
        exact ⟨trivial, rfl, nofun⟩
      · intro e he v hv
        cases List.mem_singleton.mp he
        cases hv
        exact ⟨trivial, rfl, nofun⟩
  · refine .unknown ?_ (by show 3 < 2 ^ 32; decide) (by show 99 < 2 ^ 32; decide)
    intro t ht
    cases List.mem_singleton.mp ht
    show 20 ≠ 99
    decide

theorem shop_log_length {name : Bytes} (hn : ShopName name) : ((shopLog name).flatMap Item.enc).length < 2 ^ 32 := by
  have h := shopStream_length hn
  unfold shopStream at h
  omega

set_option maxRecDepth 4000 in
theorem shop_ahead {name : Bytes} (hn : ShopName name) : Ahead (shopLog name) := by
  rcases hn with rfl | rfl | rfl <;> exact ⟨by decide, by decide, by decide, by decide, by decide, by decide, trivial⟩

/-- The hypotheses of `C58_command_partial` hold, on every disk with these log files. -/
theorem shop_redo (env : Env) (fs : Bytes → File) (spare : Nat) (out : Out)
    (hfs : All2 (fun chunks n => ∃ content, fs n = .ok content ∧ IsLogFile chunks content) (shopParts (b! "bob")) [b! "ib_logfile0", b! "ib_logfile1"]) :
    ∃ lines, fromRedoFile env fs shopRedo spare out = .ok () (out ++ lines) ∧ All2 (Undoes env.ff) lines [shopChange (b! "bob")] :=
  C58_command_partial env _ shopRedo spare (shopFile idKey) shopTables shopColumns (shopIndexes idKey) (shopFields idKey) [b! "ib_logfile0", b! "ib_logfile1"]
    (shopParts (b! "bob")) (shopLog (b! "bob")) (shopChanges (b! "bob")) rfl (shop_dictionary (.inl rfl)) (by decide) (by decide) rfl hfs
    (shop_cut _) (shop_log_fits (.inl rfl)) shop_arranged (shop_followed env _) (by
      intro ch hch _
      simp only [shopChanges, List.mem_cons, List.not_mem_nil, or_false, reduceCtorEq, false_or, or_self, Option.some.injEq] at hch
      subst hch
      refine ⟨⟨_, rfl, by decide, ?_⟩, ?_, by decide, by decide⟩
      · rintro v ⟨⟩
        exact raw_plain (by show 39 ∉ b! "bob"; decide) (by show 92 ∉ b! "bob"; decide)
      · intro k hk
        cases List.mem_singleton.mp hk
        exact ⟨by decide, raw_plain (by show 39 ∉ intText 7; decide) (by show 92 ∉ intText 7; decide)⟩) (shop_ahead (.inl rfl)) (shop_log_length (.inl rfl)) out

example (env : Env) (spare : Nat) (out : Out) :
    ∃ lines, fromRedoFile env (shopDisk (b! "bob")) shopRedo spare out = .ok () (out ++ lines) ∧ All2 (Undoes env.ff) lines [shopChange (b! "bob")] :=
  shop_redo env _ spare out (shop_disk (.inl rfl))

/-- C58 is false of the code: for a row whose name was `it's`, a line is printed that is no statement. -/
theorem C58_false : ¬ C58_statement := by
  intro h
  have hn : ShopName (b! "it's") := .inr (.inl rfl)
  obtain ⟨lines, e1, e2⟩ := h testEnv (shopDisk (b! "it's")) shopRedo 0 (shopFile idKey) shopTables shopColumns (shopIndexes idKey) (shopFields idKey)
    [b! "ib_logfile0", b! "ib_logfile1"] (shopParts (b! "it's")) (shopLog (b! "it's")) (shopChanges (b! "it's")) rfl (shop_dictionary (.inl rfl))
    (by decide) (by decide) rfl (shop_disk hn) (shop_cut _) (shop_log_fits hn) (all2_imp (fun _ _ => followed_logs) (shop_followed testEnv _)) []
  rw [C58_lines testEnv _ shopRedo 0 (shopFile idKey) shopTables shopColumns (shopIndexes idKey) (shopFields idKey) [b! "ib_logfile0", b! "ib_logfile1"]
    (shopParts (b! "it's")) (shopLog (b! "it's")) (shopChanges (b! "it's")) rfl (shop_dictionary (.inl rfl)) (by decide) (by decide) rfl (shop_disk hn)
    (shop_cut _) (shop_log_fits hn) shop_arranged (shop_followed testEnv _) (shop_ahead hn) (shop_log_length hn) []] at e1
  injection e1 with _ e1
  rw [List.nil_append, List.nil_append] at e1
  have e1 : [b! "update `shop`.`t` set `name`='it's' where `id`='7';"] = lines := e1
  subst e1
  have e2 : All2 (Undoes testEnv.ff) [b! "update `shop`.`t` set `name`='it's' where `id`='7';"] [shopChange (b! "it's")] := e2
  cases e2 with
  | cons h _ =>
    obtain ⟨u, h1, _⟩ := h
    have : readUpdate (b! "update `shop`.`t` set `name`='it's' where `id`='7';") = none := by decide
    rw [this] at h1
    cases h1

/-! ## C55 -/

/-- **C55**, in full: one line for each update of a row of a table asked for, and nothing else. -/
def C55_statement : Prop := ∀ (env : Env) (fs : Bytes → File) (a : FromRedo) (spare : Nat) (sys : Bytes) (trs : List TableRow) (crs : List ColumnRow)
    (irs : List IndexRow) (frs : List FieldRow) (names : List Bytes) (parts : List (List Bytes)) (its : List Item) (chs : List (Option Change)),
  a.sysFile = .ok sys → Dictionary sys trs crs irs frs → names ≠ [] → (∀ n ∈ names, 44 ∉ n) → a.redoFile = commaList names →
  All2 (fun chunks n => ∃ content, fs n = .ok content ∧ IsLogFile chunks content) parts names → parts.flatten.flatten = its.flatMap Item.enc →
  (∀ it ∈ its, it.Fits) → All2 (Logs env.zone trs crs irs frs) its chs →
  ∀ out, ∃ lines, fromRedoFile env fs a spare out = .ok () (out ++ lines) ∧ lines.length = ((chs.filterMap id).filter (Wanted a)).length

/-- C55 is false of the code: the command aborts on a log with one record, the one for the reuse of an undo log. -/
theorem C55_false : ¬ C55_statement := by
  intro h
  obtain ⟨lines, e, _⟩ := h testEnv (fun _ => .ok (logFile (Item.record false 0 0 (.undoHdrReuse 7)).enc)) { shopRedo with redoFile := b! "log" } 0
    (shopFile idKey) shopTables shopColumns (shopIndexes idKey) (shopFields idKey) [b! "log"] [[(Item.record false 0 0 (.undoHdrReuse 7)).enc]]
    [.record false 0 0 (.undoHdrReuse 7)] [none] rfl (shop_dictionary (.inl rfl)) (by decide) (by decide) rfl
    (.cons ⟨_, rfl, logFile_is _ (by decide)⟩ .nil) rfl
    (fun it hit => by cases List.mem_singleton.mp hit; exact ⟨by decide, by decide, by show 7 < 2 ^ 64; decide⟩) (.cons (.other nofun) .nil) []
  obtain ⟨lay, hload, _⟩ := loads_arranged testEnv (shopFile idKey) shopTables shopColumns (shopIndexes idKey) (shopFields idKey)
    (shop_dictionary (.inl rfl)).file (shop_dictionary (.inl rfl)).indexes shop_arranged
  obtain ⟨tables, dict, h1, _, _⟩ := hload []
  rw [C55_files testEnv (fun _ => .ok (logFile (Item.record false 0 0 (.undoHdrReuse 7)).enc)) { shopRedo with redoFile := b! "log" } 0 [] { tables, dict, out := [] } [b! "log"]
    [[(Item.record false 0 0 (.undoHdrReuse 7)).enc]] h1 (by decide) (by decide) rfl
    (.cons ⟨_, rfl, logFile_is _ (by decide)⟩ .nil)] at e
  have hp : ∀ tables, parseRedoBlockData { env := testEnv, tables := tables, tableName := [], dbName := b! "shop" }
      ⟨[(Item.record false 0 0 (.undoHdrReuse 7)).enc].flatten, 0⟩ [] = .panic [] := fun _ => rfl
  have e : (match parseRedoBlockData { env := testEnv, tables := tables, tableName := [], dbName := b! "shop" }
      ⟨[(Item.record false 0 0 (.undoHdrReuse 7)).enc].flatten, 0⟩ [] with
      | .ok none o => .ok () o
      | .ok (some e) o => .ok () (o ++ [b! "parse redo failed, error:  " ++ e])
      | .panic o => .panic o
      | .hang o => .hang o : R Out Unit) = .ok () ([] ++ lines) := e
  rw [hp] at e
  cases e

end Verif.Props
