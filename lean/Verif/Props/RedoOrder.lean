import Verif.Props.RedoChecks
/-!
# C79: the order of the blocks in a log that has been written round

When the end of the log file is reached, writing goes on at its beginning.  So the newest blocks can stand in front of older ones; the number in
the header of each block says in which order they were written.
-/

namespace Verif.Props
open Verif Spec

/-- the number of a block; the first bit is a mark -/
def blockNumber (b : Bytes) : Nat := numAt b 0 4 % 2 ^ 31

/-- A log file in which the blocks of the log `newer` stand in front of those of the log `older`; by their numbers the older ones come first.
(A record does not extend over the place; for that, see C70.) -/
def Circular (newer older : List Item) (content : Bytes) : Prop :=
  ∃ (p : Preamble) (new old blocksNew blocksOld : List Bytes), p.Valid ∧ All2 IsBlock new blocksNew ∧ All2 IsBlock old blocksOld ∧
    new.flatten = newer.flatMap Item.enc ∧ old.flatten = older.flatMap Item.enc ∧
    ((blocksOld ++ blocksNew).map blockNumber).Pairwise (· < ·) ∧ content = p.bytes ++ (blocksNew ++ blocksOld).flatten

/-- **C79**, as stated: the statements are printed in the order in which the updates were made. -/
def C79_statement : Prop :=
  ∀ (cfg : RCfg) (spare : Nat) (newer older : List Item) (new old : List (List Bytes)) (content : Bytes) (out : Out),
    Circular newer older content → (∀ it ∈ newer ++ older, it.Fits) → All2 (Lines cfg) newer new → All2 (Lines cfg) older old →
    Ahead (newer ++ older) → Ahead (older ++ newer) → ((newer ++ older).flatMap Item.enc).length < 2 ^ 32 →
    parseRedoLogs cfg [.ok content] spare out = .ok none (out ++ old.flatten ++ new.flatten)

theorem all2_app {α β : Type} {R : α → β → Prop} {l l' : List α} {m m' : List β} (h : All2 R l m) (h' : All2 R l' m') :
    All2 R (l ++ l') (m ++ m') := by
  induction h with
  | nil => exact h'
  | cons h _ ih => exact .cons h ih

/-- **C79, what happens:** the statements of the newer blocks are printed first, because they stand first in the file. -/
theorem C79_exact (cfg : RCfg) (spare : Nat) (newer older : List Item) (new old : List (List Bytes)) (content : Bytes) (out : Out)
    (hc : Circular newer older content) (hfit : ∀ it ∈ newer ++ older, it.Fits) (hn : All2 (Lines cfg) newer new) (ho : All2 (Lines cfg) older old)
    (ha : Ahead (newer ++ older)) (hl : ((newer ++ older).flatMap Item.enc).length < 2 ^ 32) :
    parseRedoLogs cfg [.ok content] spare out = .ok none (out ++ new.flatten ++ old.flatten) := by
  obtain ⟨p, n, o, bn, bo, hp, h1, h2, h3, h4, _, rfl⟩ := hc
  have hf : IsLogFile (n ++ o) (p.bytes ++ (bn ++ bo).flatten) := ⟨p, _, [], hp, all2_app h1 h2, Or.inl rfl, by rw [List.append_nil]⟩
  rw [C38_parse cfg [.ok (p.bytes ++ (bn ++ bo).flatten)] [n ++ o] spare (.cons ⟨_, rfl, hf⟩ .nil), List.flatten_cons, List.flatten_nil,
    List.append_nil, List.flatten_append, h3, h4, ← List.flatMap_append, C42_log_partial cfg spare _ _ hfit (all2_app hn ho) ha hl out,
    List.flatten_append, List.append_assoc]

/-- **C79, exactly:** the order is right if and only if it makes no difference. -/
theorem C79_iff (cfg : RCfg) (spare : Nat) (newer older : List Item) (new old : List (List Bytes)) (content : Bytes) (out : Out)
    (hc : Circular newer older content) (hfit : ∀ it ∈ newer ++ older, it.Fits) (hn : All2 (Lines cfg) newer new) (ho : All2 (Lines cfg) older old)
    (ha : Ahead (newer ++ older)) (hl : ((newer ++ older).flatMap Item.enc).length < 2 ^ 32) :
    parseRedoLogs cfg [.ok content] spare out = .ok none (out ++ old.flatten ++ new.flatten) ↔
      new.flatten ++ old.flatten = old.flatten ++ new.flatten := by
  rw [C79_exact cfg spare newer older new old content out hc hfit hn ho ha hl, List.append_assoc, List.append_assoc]
  constructor
  · intro h
    injection h with _ h
    exact List.append_cancel_left h
  · intro h
    rw [h]

/-- **C79 (partial).** True of log files whose blocks stand in the order of their numbers.  Missing: all others (`C79_exact`). -/
theorem C79_ascending_partial (cfg : RCfg) (spare : Nat) (items : List Item) (lines : List (List Bytes)) (content : Bytes) (out : Out)
    (hc : Circular [] items content) (hfit : ∀ it ∈ items, it.Fits) (h : All2 (Lines cfg) items lines) (ha : Ahead items)
    (hl : (items.flatMap Item.enc).length < 2 ^ 32) : parseRedoLogs cfg [.ok content] spare out = .ok none (out ++ lines.flatten) := by
  have := C79_exact cfg spare [] items [] lines content out hc hfit .nil h ha hl
  rwa [List.flatten_nil, List.append_nil] at this

/-- **C79, the numbers:** they make no difference at all. -/
theorem C79_numbers (cfg : RCfg) (spare : Nat) (newer older : List Item) (content content' : Bytes) (hc : Circular newer older content)
    (hc' : Circular [] (newer ++ older) content') : parseRedoLogs cfg [.ok content] spare = parseRedoLogs cfg [.ok content'] spare := by
  obtain ⟨p, n, o, bn, bo, hp, h1, h2, h3, h4, _, rfl⟩ := hc
  obtain ⟨p', n', o', bn', bo', hp', h1', h2', h3', h4', _, rfl⟩ := hc'
  have hf : IsLogFile (n ++ o) (p.bytes ++ (bn ++ bo).flatten) := ⟨p, _, [], hp, all2_app h1 h2, Or.inl rfl, by rw [List.append_nil]⟩
  have hf' : IsLogFile (n' ++ o') (p'.bytes ++ (bn' ++ bo').flatten) := ⟨p', _, [], hp', all2_app h1' h2', Or.inl rfl, by rw [List.append_nil]⟩
  rw [C38_parse cfg [.ok (p.bytes ++ (bn ++ bo).flatten)] [n ++ o] spare (.cons ⟨_, rfl, hf⟩ .nil),
    C38_parse cfg [.ok (p'.bytes ++ (bn' ++ bo').flatten)] [n' ++ o'] spare (.cons ⟨_, rfl, hf'⟩ .nil)]
  simp only [List.flatten_cons, List.flatten_nil, List.append_nil, List.flatten_append, h3, h4, h3', h4', List.flatMap_append, List.flatMap_nil,
    List.nil_append]

/-! ## C79 is false -/

theorem number_blockOf (no first cp trailer chunk : Bytes) (h : no.length = 4) : blockNumber (blockOf no first cp trailer chunk) = beVal no % 2 ^ 31 := by
  unfold blockNumber numAt blockOf
  simp only [List.append_assoc]
  rw [List.drop_zero, List.take_left' h]

/-- the newer update, made when the column was 'b', and the older one, when it was 'a' -/
def ringNewer : List Item := [wrapUpdate (b! "b")] ++ wrapOld
def ringOlder : List Item := [wrapUpdate (b! "a")] ++ wrapOld

def ringFile : Bytes := zeroPreamble.bytes ++ ([blockOf [0, 0, 0, 9] [0, 12] [0, 0, 0, 0] [1, 2, 3, 4] (ringNewer.flatMap Item.enc)] ++
  [blockOf [0, 0, 0, 8] [0, 12] [0, 0, 0, 0] [1, 2, 3, 4] (ringOlder.flatMap Item.enc)]).flatten

theorem ring_length : (ringNewer.flatMap Item.enc).length < 200 ∧ (ringOlder.flatMap Item.enc).length < 200 := by decide

theorem ring_circular : Circular ringNewer ringOlder ringFile := by
  have hc : blockCapacity = 496 := rfl
  refine ⟨zeroPreamble, [_], [_], [_], [_], zeroPreamble_valid, .cons (blockOf_is _ _ _ _ _ rfl rfl rfl rfl (by have := ring_length.1; omega)) .nil,
    .cons (blockOf_is _ _ _ _ _ rfl rfl rfl rfl (by have := ring_length.2; omega)) .nil, List.flatten_singleton, List.flatten_singleton, ?_, rfl⟩
  rw [List.singleton_append, List.map_cons, List.map_cons, List.map_nil, number_blockOf _ _ _ _ _ rfl, number_blockOf _ _ _ _ _ rfl]
  decide

theorem ring_fits : ∀ it ∈ ringNewer ++ ringOlder, it.Fits := by
  have key : ∀ v : Bytes, v.length < 100 → ∀ it ∈ [wrapUpdate v] ++ wrapOld, it.Fits := by
    intro v hv it hit
    rcases List.mem_append.mp hit with hit | hit
    · cases List.mem_singleton.mp hit
      exact ⟨by decide, by decide, (exRecorded wrapCol (.varchar v) rfl trivial hv).fits⟩
    · exact wrap_fits it (List.mem_append_right _ hit)
  intro it hit
  rcases List.mem_append.mp hit with hit | hit
  · exact key (b! "b") (by decide) it hit
  · exact key (b! "a") (by decide) it hit

/-- the statement for an update of the example -/
def wrapLine (v : Bytes) : Bytes := updateText (b! " and ") (exTable wrapCol).db (exTable wrapCol).name
  (setsOf someEnv.ff (exTable wrapCol) [(3, some (.varchar v))]) (condsOf someEnv.ff [b! "id"] [.int 4 7])

theorem wrap_line (v : Bytes) (hv : v.length < 100) : Lines (exCfg wrapCol) (wrapUpdate v) [wrapLine v] := by
  have hrec := exRecorded wrapCol (.varchar v) rfl trivial hv
  refine .update hrec ⟨Or.inl rfl, Or.inl rfl⟩ ?_ ?_
  · intro w hw
    have : w = .int 4 7 := List.mem_singleton.mp hw
    subst this
    exact ⟨⟨trivial, rfl, nofun⟩, rfl⟩
  · intro e he w hw
    have : e = (3, some (.varchar v)) := List.mem_singleton.mp he
    subst this
    cases hw
    exact ⟨trivial, rfl, nofun⟩

theorem ring_lines (v : Bytes) (hv : v.length < 100) : All2 (Lines (exCfg wrapCol)) ([wrapUpdate v] ++ wrapOld) [[wrapLine v], [], []] :=
  .cons (wrap_line v hv) (wrap_old_lines _)

/-- **C79 is false:** the column was 'a', then 'b'; the statement that restores 'b' is printed before that which restores 'a'. -/
theorem C79_false : ¬ C79_statement := by
  intro h
  have h1 := ring_lines (b! "b") (by decide)
  have h2 := ring_lines (b! "a") (by decide)
  have hl : ((ringNewer ++ ringOlder).flatMap Item.enc).length < 2 ^ 32 := by
    rw [List.flatMap_append, List.length_append]
    have := ring_length
    omega
  have ha : Ahead (ringNewer ++ ringOlder) := ⟨by decide, by decide, by decide, by decide, by decide, by decide, trivial⟩
  have ha' : Ahead (ringOlder ++ ringNewer) := ⟨by decide, by decide, by decide, by decide, by decide, by decide, trivial⟩
  have := (C79_iff (exCfg wrapCol) 0 _ _ _ _ _ [] ring_circular ring_fits h1 h2 ha hl).mp
    (h (exCfg wrapCol) 0 _ _ _ _ _ [] ring_circular ring_fits h1 h2 ha ha' hl)
  have : [wrapLine (b! "b"), wrapLine (b! "a")] = [wrapLine (b! "a"), wrapLine (b! "b")] := this
  exact absurd this (by decide)

/-- the statements of that file, as they are printed -/
example : wrapLine (b! "a") ≠ wrapLine (b! "b") ∧ parseRedoLogs (exCfg wrapCol) [.ok ringFile] 0 [] = .ok none [wrapLine (b! "b"), wrapLine (b! "a")] := by
  refine ⟨by decide, ?_⟩
  rw [C79_exact (exCfg wrapCol) 0 _ _ _ _ _ [] ring_circular ring_fits (ring_lines (b! "b") (by decide)) (ring_lines (b! "a") (by decide))
    ⟨by decide, by decide, by decide, by decide, by decide, by decide, trivial⟩ ?_]
  · rfl
  · rw [List.flatMap_append, List.length_append]
    have := ring_length
    omega

end Verif.Props
