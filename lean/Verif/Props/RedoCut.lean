import Verif.Props.RedoCommand
import Verif.Props.RedoTruncated
/-!
# C67: log files that are cut off
-/

namespace Verif.Props
open Verif Spec

/-- the bytes up to the end of the block that are not in the file are zeros -/
def padBlock (r : Bytes) : Bytes := r ++ List.replicate (512 - r.length) 0

theorem padBlock_length {r : Bytes} (h : r.length ≤ 512) : (padBlock r).length = 512 := by
  simp [padBlock]; omega

theorem readNext_any (r : Bytes) : readNextBytes r OS_FILE_LOG_BLOCK_SIZE = if r = [] then none else some (padBlock (r.take 512), r.drop 512) := by
  unfold readNextBytes padBlock
  have hs : OS_FILE_LOG_BLOCK_SIZE = 512 := rfl
  rw [hs]
  split
  · rfl
  · rw [List.length_take]
    congr 4
    omega

theorem readNext_pad {r : Bytes} (h : r ≠ []) (hl : r.length ≤ 512) : readNextBytes r OS_FILE_LOG_BLOCK_SIZE = some (padBlock r, []) := by
  rw [readNext_any, if_neg h, List.take_of_length_le hl, List.drop_of_length_le hl]

theorem blocksLoop_pad (fuel : Nat) {r : Bytes} (acc : Bytes) (h : r ≠ []) (hl : r.length ≤ 512) :
    blocksLoop (fuel + 1) r acc = blocksLoop (fuel + 1) (padBlock r ++ []) acc := by
  rw [blocksLoop, blocksLoop, readNext_pad h hl, readNext_block _ _ (padBlock_length hl)]

/-- what the program takes from the first `m` bytes of a block with the given piece of the log -/
def cutChunk (m : Nat) (chunk : Bytes) : Bytes :=
  if m < 5 then []
  else if m = 5 then List.replicate (if chunk.length = 496 then 496 else if chunk.length < 244 then 0 else 244) 0
  else chunk.take (m - 12) ++ List.replicate (chunk.length - (m - 12)) 0

theorem numAt_pad {b : Bytes} (hb : b.length = 512) {m : Nat} (hm : m ≤ 512) : numAt (padBlock (b.take m)) 4 2 =
    if m < 5 then 0 else if m = 5 then numAt b 4 2 / 256 * 256 else numAt b 4 2 := by
  have hl : (b.take m).length = m := by rw [List.length_take]; omega
  obtain ⟨x, y, hxy⟩ : ∃ x y, (b.drop 4).take 2 = [x, y] := by
    match h : (b.drop 4).take 2 with
    | [x, y] => exact ⟨x, y, rfl⟩
    | [] | [_] | _ :: _ :: _ :: _ =>
      have := congrArg List.length h
      simp only [List.length_take, List.length_drop, List.length_cons, List.length_nil] at this
      omega
  have hz : ∀ k n : Nat, beVal (List.replicate k (0 : UInt8)) = 0 := by
    intro k _
    induction k with
    | zero => rfl
    | succ k ih =>
      rw [List.replicate_succ]
      simp only [beVal, List.foldl] at ih ⊢
      exact ih
  unfold numAt padBlock
  rw [hxy, hl]
  split
  · rename_i h
    rw [List.drop_append, List.drop_of_length_le (by omega), List.nil_append, List.drop_replicate, List.take_replicate]
    exact hz _ 0
  · split
    · rename_i h1 h
      subst h
      have e : (b.take 5).drop 4 = [x] := by
        rw [List.drop_take, show 5 - 4 = 1 from rfl]
        have := congrArg (List.take 1) hxy
        rw [List.take_take] at this
        exact this
      rw [List.drop_append_of_le_length (by omega), e]
      have hx := x.toNat_lt
      have hy := y.toNat_lt
      show beVal [x, 0] = beVal [x, y] / 256 * 256
      simp only [beVal, List.foldl]
      have : (0 : UInt8).toNat = 0 := rfl
      rw [this]
      omega
    · rw [List.drop_append_of_le_length (by omega), List.take_append_of_le_length (by rw [List.length_drop]; omega), List.drop_take,
        List.take_take, show min 2 (m - 4) = 2 by omega, hxy]

theorem payload_pad {chunk b : Bytes} (h : IsBlock chunk b) {m : Nat} (hm : m ≤ 512) :
    (numAt (padBlock (b.take m)) 4 2 = 0 ∧ cutChunk m chunk = []) ∨
    (numAt (padBlock (b.take m)) 4 2 ≠ 0 ∧ (12 ≤ numAt (padBlock (b.take m)) 4 2 ∧ numAt (padBlock (b.take m)) 4 2 ≤ 516) ∧
      payload (padBlock (b.take m)) (numAt (padBlock (b.take m)) 4 2) = cutChunk m chunk) := by
  have hpay := payload_block h
  obtain ⟨hb, hc, hn, hp⟩ := h
  have e1 : blockCapacity = 496 := rfl
  have e2 : blockSize = 512 := rfl
  rw [e1, e2] at hn
  rw [e1] at hc
  rw [e2] at hb
  have hl : (b.take m).length = m := by rw [List.length_take]; omega
  rw [numAt_pad hb hm]
  by_cases h5 : m < 5
  · left
    simp [cutChunk, h5]
  · by_cases h6 : m = 5
    · subst h6
      rw [if_neg h5, if_pos rfl]
      have hcut : cutChunk 5 chunk = List.replicate (if chunk.length = 496 then 496 else if chunk.length < 244 then 0 else 244) 0 := by
        unfold cutChunk; rw [if_neg h5, if_pos rfl]
      have hdrop : ∀ k, 5 ≤ k → k ≤ 512 → ((padBlock (b.take 5)).take k).drop 12 = List.replicate (k - 12) 0 := by
        intro k h1 h2
        unfold padBlock
        rw [List.take_append, hl, List.drop_append, List.drop_of_length_le (by rw [List.length_take, hl]; omega), List.nil_append,
          List.length_take, hl, List.take_replicate, List.drop_replicate]
        congr 1
        omega
      rw [hn]
      by_cases hf : chunk.length = 496
      · right
        rw [hcut, if_pos hf, if_pos hf, show 512 / 256 * 256 = 512 from rfl]
        refine ⟨by omega, by omega, ?_⟩
        unfold payload
        rw [if_pos (by omega), hdrop _ (by omega) (by omega)]
      · rw [hcut, if_neg hf, if_neg hf]
        by_cases hlt : chunk.length < 244
        · left
          rw [if_pos hlt]
          exact ⟨by omega, rfl⟩
        · right
          rw [if_neg hlt, show (12 + chunk.length) / 256 * 256 = 256 by omega]
          refine ⟨by omega, by omega, ?_⟩
          unfold payload
          rw [if_neg (by omega), hdrop _ (by omega) (by omega)]
    · right
      rw [if_neg h5, if_neg h6]
      refine ⟨hpay.2.1, hpay.2.2, ?_⟩
      have hcut : cutChunk m chunk = chunk.take (m - 12) ++ List.replicate (chunk.length - (m - 12)) 0 := by
        unfold cutChunk; rw [if_neg h5, if_neg h6]
      rw [hcut]
      have hk : payload (padBlock (b.take m)) (numAt b 4 2) = ((padBlock (b.take m)).drop 12).take chunk.length := by
        unfold payload
        rw [List.drop_take]
        congr 1
        rw [hn]
        split_ifs <;> omega
      rw [hk]
      unfold padBlock
      rw [hl, List.drop_append, List.take_append, List.drop_take, List.take_take, hl, List.drop_replicate, List.take_replicate]
      have h1 : (b.drop 12).take (min chunk.length (m - 12)) = chunk.take (m - 12) := by
        conv => rhs; rw [← hp]
        rw [List.take_take]
        congr 1
        omega
      rw [h1]
      congr 2
      rw [List.length_take, List.length_drop, hb]
      omega

theorem blocksLoop_cut (chunks blocks : List Bytes) (h : All2 IsBlock chunks blocks) {chunk b : Bytes} (hb : IsBlock chunk b) {m : Nat}
    (hm : m ≤ 512) (acc : Bytes) (fuel : Nat) (hf : (blocks.flatten ++ b.take m).length ≤ fuel) :
    blocksLoop fuel (blocks.flatten ++ b.take m) acc = some (acc ++ chunks.flatten ++ cutChunk m chunk) := by
  induction h generalizing acc fuel with
  | nil =>
    have hl : b.length = 512 := hb.1
    simp only [List.flatten_nil, List.nil_append, List.append_nil, List.length_take, hl] at hf ⊢
    by_cases h0 : m = 0
    · subst h0
      simp [cutChunk, blocksLoop_nil]
    · obtain ⟨fuel, rfl⟩ : ∃ k, fuel = k + 1 := ⟨fuel - 1, by omega⟩
      have hlm : (b.take m).length = m := by rw [List.length_take]; omega
      rw [blocksLoop_pad fuel acc (by intro e; rw [e] at hlm; simp at hlm; omega) (by omega),
        blocksLoop_block _ _ _ _ (padBlock_length (by omega))]
      rcases payload_pad hb hm with ⟨h1, h2⟩ | ⟨h1, h2, h3⟩
      · rw [if_pos h1, h2, List.append_nil]
      · rw [if_neg h1, if_pos h2, h3, blocksLoop_nil]
  | @cons c b' chunks blocks h1 _ ih =>
    obtain ⟨e1, e2, e3, e4⟩ := payload_block h1
    have hb' : b'.length = 512 := h1.1
    rw [List.flatten_cons, List.append_assoc] at hf ⊢
    rw [List.length_append] at hf
    obtain ⟨fuel, rfl⟩ : ∃ k, fuel = k + 1 := ⟨fuel - 1, by omega⟩
    rw [blocksLoop_block fuel b' _ acc hb', if_neg e2, if_pos ⟨e3, e4⟩, e1, ih _ fuel (by omega), List.flatten_cons,
      ← List.append_assoc acc]

/-- **C67, exactly.** Of a log file that ends after `m` bytes of a block the log bytes of the blocks before are taken, and the
block is taken as if zeros followed. -/
theorem C67_cut (p : Preamble) (hp : p.Valid) (chunks blocks : List Bytes) (h : All2 IsBlock chunks blocks) (chunk b : Bytes)
    (hb : IsBlock chunk b) (m : Nat) (hm : m ≤ 512) (acc : Bytes) :
    readRedoFile (.ok (p.bytes ++ (blocks.flatten ++ b.take m))) acc = .ok (acc ++ chunks.flatten ++ cutChunk m chunk) := by
  rw [readRedoFile_eq p hp, blocksLoop_cut chunks blocks h hb hm acc _ (Nat.le_refl _)]

/-- **C67, the beginning of the file**, for all contents: empty files and files without the third of the four header blocks give the
error "EOF", a header block without NUL byte aborts the program, from all others the blocks are read. -/
theorem C67_beginning (c acc : Bytes) :
    readRedoFile (.ok c) acc =
      if c = [] then .err (b! "EOF")
      else if 512 ≤ c.length ∧ 0 ∉ (c.take 512).drop 16 then .panic
      else if c.length ≤ 1536 then .err (b! "EOF")
      else match blocksLoop (c.drop 2048).length (c.drop 2048) acc with
        | some acc => .ok acc
        | none => .panic := by
  unfold readRedoFile readRedoLogFileHeader
  dsimp only
  rw [readNext_any]
  by_cases h0 : c = []
  · rw [if_pos h0, if_pos h0]; rfl
  · rw [if_neg h0, if_neg h0]
    dsimp only
    have hl : (padBlock (c.take 512)).length = 512 := padBlock_length (by rw [List.length_take]; omega)
    simp only [read4_eq, read8_eq]
    rw [Verif.read_at (w := 4) _ 0 (by omega), Verif.read_at (w := 4) _ 4 (by omega), Verif.read_at (w := 8) _ 8 (by omega)]
    unfold sliceFrom
    rw [if_pos (by omega)]
    simp only [Option.bind_eq_bind, Option.bind_some]
    unfold indexByte
    by_cases h1 : 512 ≤ c.length ∧ 0 ∉ (c.take 512).drop 16
    · rw [if_pos h1]
      have hpad : padBlock (c.take 512) = c.take 512 := by
        unfold padBlock
        rw [List.length_take, show 512 - min 512 c.length = 0 by omega]
        simp
      rw [hpad]
      have : ((c.take 512).drop 16).findIdx? (· == 0) = none := by
        rw [List.findIdx?_eq_none_iff]
        intro x hx
        have : x ≠ 0 := fun e => h1.2 (e ▸ hx)
        simpa using this
      rw [this]
    · rw [if_neg h1]
      have hz : 0 ∈ (padBlock (c.take 512)).drop 16 := by
        by_cases hc : 512 ≤ c.length
        · have : 0 ∈ (c.take 512).drop 16 := by
            by_contra hh; exact h1 ⟨hc, hh⟩
          unfold padBlock
          rw [List.drop_append]
          exact List.mem_append_left _ this
        · unfold padBlock
          rw [List.drop_append, List.drop_replicate]
          refine List.mem_append_right _ ?_
          rw [List.mem_replicate, List.length_take]
          exact ⟨by omega, rfl⟩
      cases hf : ((padBlock (c.take 512)).drop 16).findIdx? (· == 0) with
      | none =>
        rw [List.findIdx?_eq_none_iff] at hf
        exact absurd (hf 0 hz) (by decide)
      | some i =>
        dsimp only
        unfold readRedoLogFileCheckpoint
        rw [readNext_any]
        by_cases h2 : c.drop 512 = []
        · have : c.length ≤ 512 := List.drop_eq_nil_iff.mp h2
          rw [if_pos h2, if_pos (by omega)]
          rfl
        · rw [if_neg h2]
          dsimp only
          rw [List.drop_drop, show 512 + 512 = 1024 from rfl]
          have e := readNext_any (c.drop 1024)
          by_cases h3 : c.drop 1024 = []
          · have : c.length ≤ 1024 := List.drop_eq_nil_iff.mp h3
            rw [if_pos h3] at e
            rw [e, if_pos (show c.length ≤ 1536 by omega)]
            dsimp only
            rw [e]
            rfl
          · rw [if_neg h3] at e
            rw [e]
            dsimp only
            rw [readNext_any, List.drop_drop, show 1024 + 512 = 1536 from rfl]
            by_cases h4 : c.drop 1536 = []
            · have : c.length ≤ 1536 := List.drop_eq_nil_iff.mp h4
              rw [if_pos h4, if_pos this]
              rfl
            · have : ¬ c.length ≤ 1536 := fun h => h4 (List.drop_eq_nil_iff.mpr h)
              rw [if_neg h4, if_neg this]
              dsimp only
              rw [List.drop_drop, show 1536 + 512 = 2048 from rfl]
              cases blocksLoop (c.drop 2048).length (c.drop 2048) acc <;> rfl

/-- **C67**, as stated: a file that ends inside a block gives a beginning of what the whole file gives. -/
def C67_statement : Prop :=
  ∀ (p : Preamble) (chunks blocks : List Bytes) (chunk b : Bytes) (m : Nat), p.Valid → All2 IsBlock chunks blocks → IsBlock chunk b → m ≤ 512 →
    ∃ got, readRedoFile (.ok (p.bytes ++ (blocks.flatten ++ b.take m))) [] = .ok got ∧ got <+: chunks.flatten ++ chunk

theorem prefix_append_iff {α : Type} (a x y : List α) : a ++ x <+: a ++ y ↔ x <+: y := by
  constructor
  · rintro ⟨t, ht⟩
    exact ⟨t, by rw [List.append_assoc] at ht; exact List.append_cancel_left ht⟩
  · rintro ⟨t, rfl⟩
    exact ⟨t, by rw [List.append_assoc]⟩

/-- **C67, when.** With the two length bytes of the block in the file, only a beginning of the log is read if and only if the log bytes
of the block behind the cut are zeros. -/
theorem C67_prefix_iff (p : Preamble) (hp : p.Valid) (chunks blocks : List Bytes) (h : All2 IsBlock chunks blocks) (chunk b : Bytes)
    (hb : IsBlock chunk b) (m : Nat) (h6 : 6 ≤ m) (hm : m ≤ 512) :
    (∃ got, readRedoFile (.ok (p.bytes ++ (blocks.flatten ++ b.take m))) [] = .ok got ∧ got <+: chunks.flatten ++ chunk) ↔
      ∀ x ∈ chunk.drop (m - 12), x = 0 := by
  rw [C67_cut p hp chunks blocks h chunk b hb m hm, List.nil_append]
  have hc : cutChunk m chunk = chunk.take (m - 12) ++ List.replicate (chunk.length - (m - 12)) 0 := by
    unfold cutChunk; rw [if_neg (by omega), if_neg (by omega)]
  have e : (∃ got, (RF.ok (chunks.flatten ++ cutChunk m chunk)) = RF.ok got ∧ got <+: chunks.flatten ++ chunk) ↔ cutChunk m chunk <+: chunk := by
    constructor
    · rintro ⟨got, h1, h2⟩
      cases h1
      exact (prefix_append_iff _ _ _).mp h2
    · intro h
      exact ⟨_, rfl, (prefix_append_iff _ _ _).mpr h⟩
  rw [e, hc]
  have e2 : (chunk.take (m - 12) ++ List.replicate (chunk.length - (m - 12)) 0 <+: chunk) ↔
      List.replicate (chunk.length - (m - 12)) 0 <+: chunk.drop (m - 12) := by
    conv => lhs; rhs; rw [← List.take_append_drop (m - 12) chunk]
    exact prefix_append_iff _ _ _
  rw [e2]
  constructor
  · intro h x hx
    have := h.eq_of_length (by rw [List.length_replicate, List.length_drop])
    rw [← this] at hx
    exact (List.mem_replicate.mp hx).2
  · intro h
    have : chunk.drop (m - 12) = List.replicate (chunk.length - (m - 12)) 0 := by
      rw [← List.length_drop]
      exact List.eq_replicate_of_mem h
    rw [this]

/-- **C67, where it holds:** cuts that lose no log byte of the block, or all of them together with the length. -/
theorem C67_cut_partial (p : Preamble) (hp : p.Valid) (chunks blocks : List Bytes) (h : All2 IsBlock chunks blocks) (chunk b : Bytes)
    (hb : IsBlock chunk b) (m : Nat) (hm : m ≤ 512) :
    (12 + chunk.length ≤ m → readRedoFile (.ok (p.bytes ++ (blocks.flatten ++ b.take m))) [] = .ok (chunks.flatten ++ chunk)) ∧
    (m ≤ 4 → readRedoFile (.ok (p.bytes ++ (blocks.flatten ++ b.take m))) [] = .ok chunks.flatten) := by
  rw [C67_cut p hp chunks blocks h chunk b hb m hm, List.nil_append]
  constructor
  · intro h1
    have hc : cutChunk m chunk = chunk.take (m - 12) ++ List.replicate (chunk.length - (m - 12)) 0 := by
      unfold cutChunk; rw [if_neg (by omega), if_neg (by omega)]
    rw [hc, List.take_of_length_le (by omega), show chunk.length - (m - 12) = 0 by omega]
    simp
  · intro h1
    have hc : cutChunk m chunk = [] := by
      unfold cutChunk; rw [if_pos (by omega)]
    rw [hc, List.append_nil]

/-- a block without number, first record and checkpoint -/
def plainBlock (chunk : Bytes) : Bytes := blockOf [0, 0, 0, 1] [0, 12] [0, 0, 0, 0] [1, 2, 3, 4] chunk

theorem plainBlock_is {chunk : Bytes} (h : chunk.length ≤ 496) : IsBlock chunk (plainBlock chunk) := blockOf_is _ _ _ _ _ rfl rfl rfl rfl h

/-- **C67 is false:** the log byte 1 behind the cut is read as 0. -/
theorem C67_false : ¬ C67_statement := by
  intro h
  have h1 := (C67_prefix_iff zeroPreamble zeroPreamble_valid [] [] .nil [1] (plainBlock [1]) (plainBlock_is (by decide)) 12 (by decide) (by decide)).mp
    (h zeroPreamble [] [] [1] (plainBlock [1]) 12 zeroPreamble_valid .nil (plainBlock_is (by decide)) (by decide))
  exact absurd (h1 1 (by decide)) (by decide)

/-- the log record of an update that replaced the value "item" -/
def exUpdate : Bytes := (Item.record false 0 300 (.undoInsert (exUndo (some (b! "item"))))).enc

/-- **C67, what is printed:** the file is cut behind the second character of the old value "item", and the statement restores "it" with
two NUL bytes, a value that was never in the table. -/
theorem C67_wrong_statement : parseRedoLogs (exCfg { name := b! "c", ftype := 12, mtype := 15, len := 20 })
    [.ok (zeroPreamble.bytes ++ ([].flatten ++ (plainBlock exUpdate).take (10 + exUpdate.length)))] 0 [] =
    .ok none [b! "update `d`.`t` set `c`='it\x00\x00' where `id`='7';"] := by
  have hr : readRedoFiles [.ok (zeroPreamble.bytes ++ ([].flatten ++ (plainBlock exUpdate).take (10 + exUpdate.length)))] [] =
      .ok (cutChunk (10 + exUpdate.length) exUpdate) := by
    rw [readRedoFiles, C67_cut zeroPreamble zeroPreamble_valid [] [] .nil exUpdate _ (plainBlock_is (by decide)) (10 + exUpdate.length) (by decide)]
    rfl
  unfold parseRedoLogs
  rw [hr]
  decide

/-- **C67, files without log.** A log file of at most 1536 bytes (without a second checkpoint block), if its first block is cut or has a NUL
byte behind offset 16, ends the command: nothing of the other files is printed, exactly the error "EOF". -/
theorem C67_short_file (env : Env) (fs : Bytes → File) (a : FromRedo) (spare : Nat) (out : Out) (s : DState) (before after : List Bytes) (name content : Bytes)
    (parts : List (List Bytes)) (h : parseDictPage env a.sysFile { out := out } = .ok none s)
    (hn : ∀ n ∈ before ++ name :: after, 44 ∉ n) (ha : a.redoFile = commaList (before ++ name :: after))
    (hp : All2 (fun chunks n => ∃ content, fs n = .ok content ∧ IsLogFile chunks content) parts before)
    (hc : fs name = .ok content) (hl : content.length ≤ 1536) (h0 : 512 ≤ content.length → 0 ∈ (content.take 512).drop 16) :
    fromRedoFile env fs a spare out = .ok () (out ++ [b! "parse redo failed, error:  EOF"]) := by
  have ho : s.out = out := dict_out env a.sysFile out h
  have hp' : All2 (fun chunks f => ∃ content, f = .ok content ∧ IsLogFile chunks content) parts (before.map fs) := by
    clear h ha hn ho
    induction hp with
    | nil => exact .nil
    | cons h1 _ ih => exact .cons h1 ih
  have hf : ∀ acc, readRedoFile (.ok content) acc = .err (b! "EOF") := by
    intro acc
    rw [C67_beginning]
    by_cases h1 : content = []
    · rw [if_pos h1]
    · rw [if_neg h1, if_neg (fun hh => hh.2 (h0 hh.1)), if_pos hl]
  have hr : readRedoFiles ((before ++ name :: after).map fs) [] = .err (b! "EOF") := by
    rw [List.map_append, readRedoFiles_append, C38_stream _ parts hp', List.map_cons, hc]
    dsimp only
    rw [readRedoFiles, hf]
  unfold fromRedoFile
  rw [h]
  dsimp only
  rw [ha, C55_names _ (by simp) hn, parseRedoLogs, hr, ho]
  rfl

/-- non-vacuity: an empty log file -/
example (env : Env) (sys : File) (s : DState) (h : parseDictPage env sys {} = .ok none s) :
    fromRedoFile env (fun _ => .ok []) ⟨sys, b! "a,b", b! "d", b! "t"⟩ 0 [] = .ok () [b! "parse redo failed, error:  EOF"] :=
  C67_short_file env _ ⟨sys, b! "a,b", b! "d", b! "t"⟩ 0 [] s [] [b! "b"] (b! "a") [] [] h (by decide) rfl .nil rfl (by decide) (by intro h; exact absurd h (by decide))

/-- non-vacuity of the cut theorems: a full block before, then a block of which three log bytes are left -/
example : readRedoFile (.ok (zeroPreamble.bytes ++ ([plainBlock (List.replicate 496 7)].flatten ++ (plainBlock [1, 2, 3, 4, 0]).take 15))) [9] =
    .ok ([9] ++ [List.replicate 496 7].flatten ++ [1, 2, 3, 0, 0]) :=
  C67_cut zeroPreamble zeroPreamble_valid [List.replicate 496 7] [plainBlock (List.replicate 496 7)]
    (.cons (plainBlock_is (by rw [List.length_replicate])) .nil) [1, 2, 3, 4, 0] _ (plainBlock_is (by decide)) 15 (by decide) [9]

end Verif.Props
