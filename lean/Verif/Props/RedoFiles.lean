import Verif.Model.Redo
import Verif.Spec.RedoLog
import Verif.Proofs.Pages
import Verif.Proofs.Poke
/-!
# C38, C39: reading redo log files
-/

namespace Verif.Props
open Verif Spec

theorem readNext_block (b rest : Bytes) (hb : b.length = 512) : readNextBytes (b ++ rest) OS_FILE_LOG_BLOCK_SIZE = some (b, rest) := by
  unfold readNextBytes
  have hs : OS_FILE_LOG_BLOCK_SIZE = 512 := rfl
  rw [if_neg (by intro h; have := congrArg List.length h; rw [List.length_append] at this; simp at this; simp [this.1] at hb), hs,
    List.take_left' hb, List.drop_left' hb, List.length_append, hb]
  rw [show 512 - (512 + rest.length) = 0 by omega]
  simp

theorem blockHeader_eq (b : Bytes) (hb : b.length = 512) : readRedoBlockHeader b = some (numAt b 4 2) := by
  unfold readRedoBlockHeader
  simp only [read4_eq, read2_eq]
  rw [read_at (w := 4) b 0 (by omega), read_at (w := 2) b 4 (by omega), read_at (w := 2) b 6 (by omega),
    read_at (w := 4) b 8 (by omega)]
  have h : numAt b 4 2 < 256 ^ 2 := by
    unfold numAt
    refine Nat.lt_of_lt_of_le (beVal_lt _) (Nat.pow_le_pow_right (by omega) ?_)
    rw [List.length_take]; omega
  show some (numAt b 4 2 % 65536) = _
  rw [Nat.mod_eq_of_lt h]

/-- the payload of a block with data length `n` -/
def payload (b : Bytes) (n : Nat) : Bytes := (b.take (if n ≥ 512 then n - 4 else n)).drop 12

/-- One block: unused blocks end the file, data lengths 12 to 516 are taken, all others abort. -/
theorem blocksLoop_block (fuel : Nat) (b rest acc : Bytes) (hb : b.length = 512) :
    blocksLoop (fuel + 1) (b ++ rest) acc =
      if numAt b 4 2 = 0 then some acc
      else if 12 ≤ numAt b 4 2 ∧ numAt b 4 2 ≤ 516 then blocksLoop fuel rest (acc ++ payload b (numAt b 4 2))
      else none := by
  rw [blocksLoop, readNext_block b rest hb]
  dsimp only
  rw [blockHeader_eq b hb]
  simp only [Option.bind_eq_bind, Option.bind_some]
  have e1 : OS_FILE_LOG_BLOCK_SIZE = 512 := rfl
  have e2 : LOG_BLOCK_HDR_SIZE = 12 := rfl
  have e3 : LOG_BLOCK_TRL_SIZE = 4 := rfl
  rw [e1, e2, e3, hb]
  by_cases h0 : numAt b 4 2 = 0
  · rw [if_pos h0, if_pos h0]
  · rw [if_neg h0, if_neg h0]
    by_cases h1 : 12 ≤ numAt b 4 2 ∧ numAt b 4 2 ≤ 516
    · rw [if_pos h1, if_pos (by split <;> omega)]
      rfl
    · rw [if_neg h1, if_neg (by split <;> omega)]

theorem blocksLoop_nil (fuel : Nat) (acc : Bytes) : blocksLoop fuel [] acc = some acc := by
  cases fuel <;> rfl

theorem blocksLoop_unused (fuel : Nat) (rest acc : Bytes) (h : Unused rest) : blocksLoop fuel rest acc = some acc := by
  rcases h with rfl | ⟨hl, h0⟩
  · exact blocksLoop_nil fuel acc
  · cases fuel with
    | zero => rfl
    | succ fuel =>
      have hl : 512 ≤ rest.length := hl
      have hb : (rest.take 512).length = 512 := by rw [List.length_take]; omega
      conv => lhs; rw [← List.take_append_drop 512 rest]
      rw [blocksLoop_block fuel _ _ acc hb]
      have : numAt (rest.take 512) 4 2 = 0 := by
        rw [← h0]
        unfold numAt
        rw [List.drop_take, List.take_take]
        congr 1
      rw [if_pos this]

theorem payload_block {chunk b : Bytes} (h : IsBlock chunk b) : payload b (numAt b 4 2) = chunk ∧ numAt b 4 2 ≠ 0 ∧
    12 ≤ numAt b 4 2 ∧ numAt b 4 2 ≤ 516 := by
  obtain ⟨hb, hc, hn, hp⟩ := h
  have e1 : blockCapacity = 496 := rfl
  have e2 : blockSize = 512 := rfl
  rw [e1, e2] at hn
  rw [e1] at hc
  have hcut : (b.take (12 + chunk.length)).drop 12 = chunk := by
    rw [List.drop_take, show 12 + chunk.length - 12 = chunk.length by omega, hp]
  unfold payload
  by_cases h : chunk.length = 496
  · rw [if_pos h] at hn
    rw [hn, if_pos (by omega), show 512 - 4 = 12 + chunk.length by omega, hcut]
    exact ⟨rfl, by omega, by omega, by omega⟩
  · rw [if_neg h] at hn
    rw [hn, if_neg (by omega), hcut]
    exact ⟨rfl, by omega, by omega, by omega⟩

theorem blocksLoop_blocks (chunks blocks : List Bytes) (h : All2 IsBlock chunks blocks) (rest acc : Bytes) (hr : Unused rest)
    (fuel : Nat) (hf : (blocks.flatten ++ rest).length ≤ fuel) :
    blocksLoop fuel (blocks.flatten ++ rest) acc = some (acc ++ chunks.flatten) := by
  induction h generalizing acc fuel with
  | nil => simp only [List.flatten_nil, List.nil_append, List.append_nil]; exact blocksLoop_unused fuel rest acc hr
  | @cons chunk b chunks blocks h1 _ ih =>
    obtain ⟨e1, e2, e3, e4⟩ := payload_block h1
    have hb : b.length = 512 := h1.1
    rw [List.flatten_cons, List.append_assoc] at hf ⊢
    rw [List.length_append] at hf
    obtain ⟨fuel, rfl⟩ : ∃ k, fuel = k + 1 := ⟨fuel - 1, by omega⟩
    rw [blocksLoop_block fuel b _ acc hb, if_neg e2, if_pos ⟨e3, e4⟩, e1, ih _ fuel (by omega), List.flatten_cons,
      List.append_assoc]

theorem header_eq (p : Preamble) (h : p.Valid) (rest : Bytes) : readRedoLogFileHeader (p.header ++ rest) = .ok rest := by
  obtain ⟨h1, _, _, _, h5⟩ := h
  have h1 : p.header.length = 512 := h1
  unfold readRedoLogFileHeader
  rw [readNext_block p.header rest h1]
  dsimp only
  simp only [read4_eq, read8_eq]
  rw [read_at (w := 4) p.header 0 (by omega), read_at (w := 4) p.header 4 (by omega), read_at (w := 8) p.header 8 (by omega)]
  unfold sliceFrom
  rw [if_pos (by omega)]
  simp only [Option.bind_eq_bind, Option.bind_some]
  unfold indexByte
  cases hf : (p.header.drop 16).findIdx? (· == 0) with
  | some i => rfl
  | none =>
    rw [List.findIdx?_eq_none_iff] at hf
    exact absurd (hf 0 h5) (by decide)

theorem checkpoint_eq (p : Preamble) (h : p.Valid) (rest : Bytes) :
    readRedoLogFileCheckpoint (p.checkpoint1 ++ (p.unused ++ (p.checkpoint2 ++ rest))) = .ok rest := by
  obtain ⟨_, h2, h3, h4, _⟩ := h
  unfold readRedoLogFileCheckpoint
  rw [readNext_block p.checkpoint1 _ h2]
  dsimp only
  rw [readNext_block p.unused _ h3]
  dsimp only
  rw [readNext_block p.checkpoint2 _ h4]

/-- a file with a valid beginning: only the blocks matter -/
theorem readRedoFile_eq (p : Preamble) (h : p.Valid) (rest acc : Bytes) :
    readRedoFile (.ok (p.bytes ++ rest)) acc = match blocksLoop rest.length rest acc with
      | some acc => .ok acc
      | none => .panic := by
  unfold readRedoFile
  dsimp only
  rw [show p.bytes ++ rest = p.header ++ (p.checkpoint1 ++ (p.unused ++ (p.checkpoint2 ++ rest))) by
    simp [Preamble.bytes, List.append_assoc], header_eq p h]
  dsimp only
  rw [checkpoint_eq p h]
  dsimp only
  cases blocksLoop rest.length rest acc <;> rfl

/-- **C38**, one file: the log bytes are appended to those of the files before. -/
theorem C38_file (chunks : List Bytes) (content acc : Bytes) (h : IsLogFile chunks content) :
    readRedoFile (.ok content) acc = .ok (acc ++ chunks.flatten) := by
  obtain ⟨p, blocks, rest, hp, hb, hr, rfl⟩ := h
  rw [List.append_assoc, readRedoFile_eq p hp, blocksLoop_blocks chunks blocks hb rest acc hr _ (Nat.le_refl _)]

/-- **C38.** From log files in the documented format exactly the log bytes are extracted, in order, across files, however
they are cut into blocks. -/
theorem C38_stream (files : List File) (parts : List (List Bytes))
    (h : All2 (fun chunks f => ∃ content, f = .ok content ∧ IsLogFile chunks content) parts files) (acc : Bytes) :
    readRedoFiles files acc = .ok (acc ++ parts.flatten.flatten) := by
  induction h generalizing acc with
  | nil => simp [readRedoFiles]
  | @cons chunks f parts files h1 _ ih =>
    obtain ⟨content, rfl, h1⟩ := h1
    rw [readRedoFiles, C38_file chunks content acc h1]
    dsimp only
    rw [ih, List.flatten_cons, List.flatten_append, List.append_assoc]

/-- what is then parsed is that stream -/
theorem C38_parse (cfg : RCfg) (files : List File) (parts : List (List Bytes)) (spare : Nat)
    (h : All2 (fun chunks f => ∃ content, f = .ok content ∧ IsLogFile chunks content) parts files) :
    parseRedoLogs cfg files spare = parseRedoBlockData cfg ⟨parts.flatten.flatten, spare⟩ := by
  unfold parseRedoLogs
  rw [C38_stream files parts h []]
  rfl

theorem cut_flatten (fuel : Nat) (s : Bytes) (h : s.length ≤ fuel) : (cut fuel s).flatten = s := by
  induction fuel generalizing s with
  | zero =>
    have : s = [] := List.eq_nil_of_length_eq_zero (by omega)
    rw [this]; rfl
  | succ fuel ih =>
    unfold cut
    split
    · rename_i hs; rw [hs]; rfl
    · rename_i hs
      have hl : 0 < s.length := List.length_pos_iff.mpr hs
      rw [List.flatten_cons, ih _ (by rw [List.length_drop, show blockCapacity = 496 from rfl]; omega), List.take_append_drop]

theorem cut_length (fuel : Nat) (s : Bytes) : ∀ c ∈ cut fuel s, c.length ≤ blockCapacity := by
  induction fuel generalizing s with
  | zero => simp [cut]
  | succ fuel ih =>
    unfold cut
    split
    · simp
    · intro c hc
      rcases List.mem_cons.mp hc with rfl | hc
      · rw [List.length_take]; omega
      · exact ih _ c hc

theorem blockOf_is (no first cp trailer chunk : Bytes) (h1 : no.length = 4) (h2 : first.length = 2) (h3 : cp.length = 4)
    (h4 : trailer.length = 4) (h5 : chunk.length ≤ blockCapacity) : IsBlock chunk (blockOf no first cp trailer chunk) := by
  have e1 : blockCapacity = 496 := rfl
  have e2 : blockSize = 512 := rfl
  have h5' : chunk.length ≤ 496 := h5
  refine ⟨?_, h5, ?_, ?_⟩
  · unfold blockOf
    simp only [List.length_append, beEnc_length', List.length_replicate, h1, h2, h3, h4, e1, e2]
    omega
  · unfold blockOf numAt
    rw [List.append_assoc, List.append_assoc, List.append_assoc, List.append_assoc, List.append_assoc, List.drop_left' h1,
      List.take_left' (beEnc_length' 2 _)]
    rw [beVal_beEnc (w := 2)]
    rw [e1, e2]
    split <;> omega
  · unfold blockOf
    have : (no ++ beEnc 2 (if chunk.length = blockCapacity then blockSize else 12 + chunk.length) ++ first ++ cp).length = 12 := by
      simp only [List.length_append, beEnc_length', h1, h2, h3]
    rw [List.append_assoc, List.append_assoc, List.drop_left' this, List.take_left' rfl]

/-- **C38, existence:** every log stream can be stored in such a file, and is read back. -/
theorem C38_roundtrip (stream : Bytes) (p : Preamble) (hp : p.Valid) :
    readRedoFiles [.ok (p.bytes ++ ((cut stream.length stream).map
      (blockOf [0, 0, 0, 1] [0, 12] [0, 0, 0, 0] [1, 2, 3, 4])).flatten ++ [])] [] = .ok stream := by
  have h := C38_stream [.ok (p.bytes ++ ((cut stream.length stream).map
      (blockOf [0, 0, 0, 1] [0, 12] [0, 0, 0, 0] [1, 2, 3, 4])).flatten ++ [])] [cut stream.length stream]
    (.cons ⟨_, rfl, p, _, [], hp, ?_, Or.inl rfl, rfl⟩ .nil) []
  · rw [h, List.flatten_cons, List.flatten_nil, List.append_nil, cut_flatten _ _ (Nat.le_refl _)]
    rfl
  · have := cut_length stream.length stream
    generalize cut stream.length stream = cs at this
    induction cs with
    | nil => exact .nil
    | cons c cs ih =>
      exact .cons (blockOf_is _ _ _ _ c rfl rfl rfl rfl (this c (by simp))) (ih fun x hx => this x (by simp [hx]))

def zeroPreamble : Preamble := ⟨List.replicate 512 0, List.replicate 512 0, List.replicate 512 0, List.replicate 512 0⟩

theorem zeroPreamble_valid : zeroPreamble.Valid := by
  refine ⟨List.length_replicate, List.length_replicate, List.length_replicate, List.length_replicate, ?_⟩
  show 0 ∈ (List.replicate 512 (0 : UInt8)).drop 16
  rw [List.drop_replicate, List.mem_replicate]
  decide

/-- non-vacuity: a stream longer than a block -/
example : readRedoFiles [.ok (zeroPreamble.bytes ++ ((cut 1000 (List.replicate 1000 7)).map
    (blockOf [0, 0, 0, 1] [0, 12] [0, 0, 0, 0] [1, 2, 3, 4])).flatten ++ [])] [] = .ok (List.replicate 1000 7) := by
  have := C38_roundtrip (List.replicate 1000 7) zeroPreamble zeroPreamble_valid
  rwa [List.length_replicate] at this

/-! ## C39 -/

/-- the data length of a block -/
def dataLen (b : Bytes) : Nat := numAt b 4 2

/-- **C39**, as stated: whatever the blocks of a file contain, reading it does not abort. -/
def C39_statement : Prop :=
  ∀ (p : Preamble) (blocks : List Bytes) (acc : Bytes), p.Valid → (∀ b ∈ blocks, b.length = 512) →
    readRedoFile (.ok (p.bytes ++ blocks.flatten)) acc ≠ .panic

/-- A data length the code does not handle -/
def BadLength (n : Nat) : Prop := (0 < n ∧ n < 12) ∨ 516 < n

theorem blocksLoop_panics (blocks : List Bytes) (hb : ∀ b ∈ blocks, b.length = 512) (acc : Bytes) (fuel : Nat)
    (hf : blocks.flatten.length ≤ fuel) :
    blocksLoop fuel blocks.flatten acc = none ↔ ∃ pre b post, blocks = pre ++ b :: post ∧ BadLength (dataLen b) ∧
      ∀ x ∈ pre, dataLen x ≠ 0 := by
  induction blocks generalizing acc fuel with
  | nil =>
    rw [List.flatten_nil, blocksLoop_nil]
    constructor
    · intro h; cases h
    · rintro ⟨pre, b, post, h, _⟩
      cases pre <;> cases h
  | cons b blocks ih =>
    have hl := hb b (by simp)
    rw [List.flatten_cons] at hf ⊢
    rw [List.length_append] at hf
    obtain ⟨fuel, rfl⟩ : ∃ k, fuel = k + 1 := ⟨fuel - 1, by omega⟩
    rw [blocksLoop_block fuel b _ acc hl]
    by_cases h0 : numAt b 4 2 = 0
    · rw [if_pos h0]
      constructor
      · intro h; cases h
      · rintro ⟨pre, x, post, h, hbad, hpre⟩
        cases pre with
        | nil =>
          rw [List.nil_append] at h
          injection h with h _
          rw [← h] at hbad
          unfold BadLength dataLen at hbad
          omega
        | cons y pre =>
          injection h with h _
          exact absurd (h ▸ h0) (hpre y (by simp))
    · rw [if_neg h0]
      by_cases h1 : 12 ≤ numAt b 4 2 ∧ numAt b 4 2 ≤ 516
      · rw [if_pos h1, ih (fun x hx => hb x (by simp [hx])) _ fuel (by omega)]
        constructor
        · rintro ⟨pre, x, post, h, hbad, hpre⟩
          refine ⟨b :: pre, x, post, by rw [h]; rfl, hbad, ?_⟩
          intro y hy
          rcases List.mem_cons.mp hy with rfl | hy
          · exact h0
          · exact hpre y hy
        · rintro ⟨pre, x, post, h, hbad, hpre⟩
          cases pre with
          | nil =>
            rw [List.nil_append] at h
            injection h with h _
            rw [← h] at hbad
            unfold BadLength dataLen at hbad
            omega
          | cons y pre =>
            injection h with _ h
            exact ⟨pre, x, post, h, hbad, fun z hz => hpre z (by simp [hz])⟩
      · rw [if_neg h1]
        constructor
        · intro _
          exact ⟨[], b, blocks, rfl, by unfold BadLength dataLen; omega, by simp⟩
        · intro _; rfl

/-- Exactly when reading a file aborts: some block before the first unused one has a data length of 1 to 11 or above 516. -/
theorem C39_iff (p : Preamble) (blocks : List Bytes) (acc : Bytes) (hp : p.Valid) (hb : ∀ b ∈ blocks, b.length = 512) :
    readRedoFile (.ok (p.bytes ++ blocks.flatten)) acc = .panic ↔ ∃ pre b post, blocks = pre ++ b :: post ∧
      BadLength (dataLen b) ∧ ∀ x ∈ pre, dataLen x ≠ 0 := by
  rw [readRedoFile_eq p hp, ← blocksLoop_panics blocks hb acc _ (Nat.le_refl _)]
  cases blocksLoop blocks.flatten.length blocks.flatten acc with
  | none => simp
  | some a => simp

/-- **C39**, for data lengths 0 and 12 to 516: no abort -/
theorem C39_lengths_partial (p : Preamble) (blocks : List Bytes) (acc : Bytes) (hp : p.Valid) (hb : ∀ b ∈ blocks, b.length = 512)
    (hl : ∀ b ∈ blocks, dataLen b = 0 ∨ (12 ≤ dataLen b ∧ dataLen b ≤ 516)) :
    readRedoFile (.ok (p.bytes ++ blocks.flatten)) acc ≠ .panic := by
  rw [Ne, C39_iff p blocks acc hp hb]
  rintro ⟨pre, b, post, rfl, hbad, _⟩
  have := hl b (by simp)
  unfold BadLength at hbad
  omega

/-- the lengths 513 to 516 and 509 to 511, which no log has, are taken, with part of the trailer as log bytes -/
theorem C39_trailer_read (fuel : Nat) (b rest acc : Bytes) (hb : b.length = 512) (hl : dataLen b = 511) :
    blocksLoop (fuel + 1) (b ++ rest) acc = blocksLoop fuel rest (acc ++ (b.take 511).drop 12) := by
  unfold dataLen at hl
  rw [blocksLoop_block fuel b rest acc hb, hl]
  rfl

/-- a block with the given data length -/
def lengthBlock (n : Nat) : Bytes := List.replicate 4 0 ++ beEnc 2 n ++ List.replicate 506 0

theorem lengthBlock_length (n : Nat) : (lengthBlock n).length = 512 := by
  simp only [lengthBlock, List.length_append, List.length_replicate, beEnc_length']

theorem lengthBlock_len (n : Nat) (h : n < 65536) : dataLen (lengthBlock n) = n := by
  unfold dataLen numAt lengthBlock
  rw [List.append_assoc, List.drop_left' List.length_replicate, List.take_left' (beEnc_length' 2 n), beVal_beEnc (w := 2) h]

/-- **C39 is false**: a block with data length 5 aborts the program. -/
theorem C39_false : ¬ C39_statement := by
  intro h
  apply h zeroPreamble [lengthBlock 5] [] zeroPreamble_valid (by
    intro b hb
    rw [List.mem_singleton] at hb
    rw [hb, lengthBlock_length])
  rw [C39_iff zeroPreamble [lengthBlock 5] [] zeroPreamble_valid (by
    intro b hb
    rw [List.mem_singleton] at hb
    rw [hb, lengthBlock_length])]
  exact ⟨[], _, [], rfl, by rw [lengthBlock_len 5 (by decide)]; unfold BadLength; omega, by simp⟩

/-- non-vacuity -/
example : readRedoFile (.ok (zeroPreamble.bytes ++ [lengthBlock 512, lengthBlock 100].flatten)) [] ≠ .panic := by
  apply C39_lengths_partial _ _ _ zeroPreamble_valid
  · intro b hb
    rcases List.mem_cons.mp hb with rfl | hb
    · exact lengthBlock_length _
    · rw [List.mem_singleton] at hb; rw [hb, lengthBlock_length]
  · intro b hb
    rcases List.mem_cons.mp hb with rfl | hb
    · rw [lengthBlock_len _ (by decide)]; omega
    · rw [List.mem_singleton] at hb; rw [hb, lengthBlock_len _ (by decide)]; omega

/-- A header block without a NUL byte after offset 16 also aborts. -/
theorem C39_header_panic (head rest : Bytes) (h : head.length = 512) (hn : 0 ∉ head.drop 16) (acc : Bytes) :
    readRedoFile (.ok (head ++ rest)) acc = .panic := by
  unfold readRedoFile readRedoLogFileHeader
  dsimp only
  rw [readNext_block head rest h]
  dsimp only
  simp only [read4_eq, read8_eq]
  rw [read_at (w := 4) head 0 (by omega), read_at (w := 4) head 4 (by omega), read_at (w := 8) head 8 (by omega)]
  unfold sliceFrom
  rw [if_pos (by omega)]
  simp only [Option.bind_eq_bind, Option.bind_some]
  unfold indexByte
  have : (head.drop 16).findIdx? (· == 0) = none := by
    rw [List.findIdx?_eq_none_iff]
    intro x hx
    have : x ≠ 0 := fun e => hn (e ▸ hx)
    simpa using this
  rw [this]

end Verif.Props
