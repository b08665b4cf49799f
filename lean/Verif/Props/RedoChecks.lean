import Verif.Props.RedoUpdate
import Verif.Props.RedoFiles
/-!
# C69, C70: what log blocks say about themselves

C69: blocks whose checksum is wrong.  C70: logs that have been written round, so that behind the newest records there is the rest of a record
whose beginning has been overwritten.
-/

namespace Verif.Props
open Verif Spec

/-! ## C69 -/

/-- **C69**, as stated: the log ends in front of the first block whose checksum is wrong. -/
def C69_statement : Prop :=
  ∀ (p : Preamble) (chunks pre : List Bytes) (chunk b : Bytes) (post : List Bytes) (acc : Bytes), p.Valid → All2 IsBlock chunks pre →
    (∀ x ∈ pre, SumOk x) → IsBlock chunk b → ¬ SumOk b → (∀ x ∈ post, x.length = blockSize) →
    readRedoFile (.ok (p.bytes ++ (pre ++ b :: post).flatten)) acc = .ok (acc ++ chunks.flatten)

/-- Two blocks with the same data length and the same log bytes; block number, place of the first group, checkpoint number and checksum may
differ. -/
structure SameLog (b b' : Bytes) : Prop where
  length : b.length = blockSize
  length' : b'.length = blockSize
  used : numAt b 4 2 = numAt b' 4 2
  inside : numAt b 4 2 ≤ 508 ∨ numAt b 4 2 = blockSize
  log : (b.take 508).drop 12 = (b'.take 508).drop 12

theorem payload_same {b b' : Bytes} (h : SameLog b b') : payload b (numAt b 4 2) = payload b' (numAt b' 4 2) := by
  have hi : numAt b 4 2 ≤ 508 ∨ numAt b 4 2 = 512 := h.inside
  have key : ∀ (x : Bytes) (k : Nat), k ≤ 508 → (x.take k).drop 12 = ((x.take 508).drop 12).take (k - 12) := by
    intro x k hk
    rw [List.drop_take, List.drop_take, List.take_take]
    congr 1
    omega
  unfold payload
  rw [← h.used]
  have hk : (if numAt b 4 2 ≥ 512 then numAt b 4 2 - 4 else numAt b 4 2) ≤ 508 := by split <;> omega
  rw [key b _ hk, key b' _ hk, h.log]

theorem blocksLoop_same {blocks blocks' : List Bytes} (h : All2 SameLog blocks blocks') (acc : Bytes) (fuel fuel' : Nat)
    (hf : blocks.flatten.length ≤ fuel) (hf' : blocks'.flatten.length ≤ fuel') :
    blocksLoop fuel blocks.flatten acc = blocksLoop fuel' blocks'.flatten acc := by
  induction h generalizing acc fuel fuel' with
  | nil => rw [List.flatten_nil, blocksLoop_nil, blocksLoop_nil]
  | @cons b b' bs bs' h1 _ ih =>
    have hb : b.length = 512 := h1.length
    have hb' : b'.length = 512 := h1.length'
    rw [List.flatten_cons, List.length_append] at hf hf'
    obtain ⟨fuel, rfl⟩ : ∃ k, fuel = k + 1 := ⟨fuel - 1, by omega⟩
    obtain ⟨fuel', rfl⟩ : ∃ k, fuel' = k + 1 := ⟨fuel' - 1, by omega⟩
    rw [List.flatten_cons, List.flatten_cons, blocksLoop_block fuel b _ acc hb, blocksLoop_block fuel' b' _ acc hb', payload_same h1, h1.used,
      ih _ fuel fuel' (by omega) (by omega)]

/-- **C69, exactly:** of the header and the trailer of a block only the data length counts, and nothing in the first four blocks of the file
does. -/
theorem C69_unchecked (p p' : Preamble) (hp : p.Valid) (hp' : p'.Valid) (blocks blocks' : List Bytes) (h : All2 SameLog blocks blocks') (acc : Bytes) :
    readRedoFile (.ok (p.bytes ++ blocks.flatten)) acc = readRedoFile (.ok (p'.bytes ++ blocks'.flatten)) acc := by
  rw [readRedoFile_eq p hp, readRedoFile_eq p' hp', blocksLoop_same h acc _ _ (Nat.le_refl _) (Nat.le_refl _)]

/-- two log files that agree in the data lengths and the log bytes -/
def SameLogFile (f f' : File) : Prop :=
  ∃ (p p' : Preamble) (blocks blocks' : List Bytes), p.Valid ∧ p'.Valid ∧ All2 SameLog blocks blocks' ∧ f = .ok (p.bytes ++ blocks.flatten) ∧
    f' = .ok (p'.bytes ++ blocks'.flatten)

/-- So whole runs over such files are the same. -/
theorem C69_runs (cfg : RCfg) (files files' : List File) (h : All2 SameLogFile files files') (spare : Nat) :
    parseRedoLogs cfg files spare = parseRedoLogs cfg files' spare := by
  have key : ∀ acc, readRedoFiles files acc = readRedoFiles files' acc := by
    induction h with
    | nil => intro acc; rfl
    | cons h1 _ ih =>
      obtain ⟨p, p', bs, bs', hp, hp', hb, rfl, rfl⟩ := h1
      intro acc
      rw [readRedoFiles, readRedoFiles, C69_unchecked p p' hp hp' bs bs' hb acc]
      cases readRedoFile (.ok (p'.bytes ++ bs'.flatten)) acc with
      | ok acc => exact ih acc
      | err e => rfl
      | panic => rfl
  unfold parseRedoLogs
  rw [key]

/-- **C69 (partial):** as long as the checksums are right the log is read.  (By `C38_file`; the checksums make no difference.) -/
theorem C69_right_partial (p : Preamble) (chunks blocks : List Bytes) (acc : Bytes) (hp : p.Valid) (hb : All2 IsBlock chunks blocks)
    (_hs : ∀ x ∈ blocks, SumOk x) : readRedoFile (.ok (p.bytes ++ blocks.flatten)) acc = .ok (acc ++ chunks.flatten) := by
  have := C38_file chunks (p.bytes ++ blocks.flatten ++ []) acc ⟨p, blocks, [], hp, hb, Or.inl rfl, rfl⟩
  rwa [List.append_nil] at this

theorem trailer_blockOf (no first cp trailer chunk : Bytes) (h1 : no.length = 4) (h2 : first.length = 2) (h3 : cp.length = 4)
    (h4 : trailer.length = 4) (h5 : chunk.length ≤ 496) :
    numAt (blockOf no first cp trailer chunk) 508 4 = beVal trailer ∧ (blockOf no first cp trailer chunk).take 508 =
      no ++ beEnc 2 (if chunk.length = blockCapacity then blockSize else 12 + chunk.length) ++ first ++ cp ++ chunk ++
        List.replicate (blockCapacity - chunk.length) 0 := by
  have hl : (no ++ beEnc 2 (if chunk.length = blockCapacity then blockSize else 12 + chunk.length) ++ first ++ cp ++ chunk ++
        List.replicate (blockCapacity - chunk.length) (0 : UInt8)).length = 508 := by
    simp only [List.length_append, beEnc_length', List.length_replicate, h1, h2, h3, show blockCapacity = 496 from rfl]
    omega
  unfold blockOf numAt
  rw [List.drop_left' hl, List.take_of_length_le (by omega), List.take_left' hl]
  exact ⟨rfl, rfl⟩

/-- Every log can be stored in blocks whose checksums are all wrong, and is read from them. -/
theorem C69_wrong_sums (p : Preamble) (chunks : List Bytes) (hc : ∀ c ∈ chunks, c.length ≤ 496) (acc : Bytes) (hp : p.Valid) :
    ∃ blocks, All2 IsBlock chunks blocks ∧ (∀ x ∈ blocks, ¬ SumOk x) ∧
      readRedoFile (.ok (p.bytes ++ blocks.flatten)) acc = .ok (acc ++ chunks.flatten) := by
  have : ∃ blocks, All2 IsBlock chunks blocks ∧ (∀ x ∈ blocks, ¬ SumOk x) := by
    induction chunks with
    | nil => exact ⟨[], .nil, by simp⟩
    | cons c cs ih =>
      obtain ⟨bs, h1, h2⟩ := ih fun x hx => hc x (List.mem_cons_of_mem _ hx)
      have hcl := hc c List.mem_cons_self
      have ht := fun t ht => trailer_blockOf [0, 0, 0, 1] [0, 12] [0, 0, 0, 0] t c rfl rfl rfl ht hcl
      have hi := fun t ht => blockOf_is [0, 0, 0, 1] [0, 12] [0, 0, 0, 0] t c rfl rfl rfl ht hcl
      have : ∃ t : Bytes, t.length = 4 ∧ ¬ SumOk (blockOf [0, 0, 0, 1] [0, 12] [0, 0, 0, 0] t c) := by
        by_cases h : SumOk (blockOf [0, 0, 0, 1] [0, 12] [0, 0, 0, 0] [0, 0, 0, 0] c)
        · refine ⟨[0, 0, 0, 1], rfl, fun h' => ?_⟩
          unfold SumOk blockSum at h h'
          rw [(ht _ rfl).1, (ht _ rfl).2] at h h'
          rw [← h'] at h
          revert h
          decide
        · exact ⟨_, rfl, h⟩
      obtain ⟨t, ht4, hts⟩ := this
      refine ⟨_ :: bs, .cons (hi t ht4) h1, ?_⟩
      intro x hx
      rcases List.mem_cons.mp hx with rfl | hx
      · exact hts
      · exact h2 x hx
  obtain ⟨blocks, h1, h2⟩ := this
  refine ⟨blocks, h1, h2, ?_⟩
  have := C38_file chunks (p.bytes ++ blocks.flatten ++ []) acc ⟨p, blocks, [], hp, h1, Or.inl rfl, rfl⟩
  rwa [List.append_nil] at this

/-- **C69 is false:** blocks with a wrong checksum are read like others. -/
theorem C69_false : ¬ C69_statement := by
  intro h
  obtain ⟨blocks, h1, h2, h3⟩ := C69_wrong_sums zeroPreamble [[7]] (by decide) [] zeroPreamble_valid
  cases h1 with
  | @cons _ b _ bs hb hbs =>
    cases hbs
    have := h zeroPreamble [] [] [7] b [] [] zeroPreamble_valid .nil (by simp) hb (h2 b List.mem_cons_self) (by simp)
    rw [List.nil_append, h3] at this
    cases this

/-- the hypotheses of `C69_runs`: two files with different block numbers, places of the first group, checkpoint numbers and checksums -/
example (chunk : Bytes) (h : chunk.length ≤ 496) :
    SameLogFile (.ok (zeroPreamble.bytes ++ [blockOf [0, 0, 0, 1] [0, 12] [0, 0, 0, 0] [1, 2, 3, 4] chunk].flatten))
      (.ok (zeroPreamble.bytes ++ [blockOf [9, 9, 9, 9] [0, 77] [1, 0, 0, 0] [4, 3, 2, 1] chunk].flatten)) := by
  have hs : SameLog (blockOf [0, 0, 0, 1] [0, 12] [0, 0, 0, 0] [1, 2, 3, 4] chunk) (blockOf [9, 9, 9, 9] [0, 77] [1, 0, 0, 0] [4, 3, 2, 1] chunk) := by
    have h1 := blockOf_is [0, 0, 0, 1] [0, 12] [0, 0, 0, 0] [1, 2, 3, 4] chunk rfl rfl rfl rfl h
    have h2 := blockOf_is [9, 9, 9, 9] [0, 77] [1, 0, 0, 0] [4, 3, 2, 1] chunk rfl rfl rfl rfl h
    refine ⟨h1.1, h2.1, h1.2.2.1.trans h2.2.2.1.symm, ?_, ?_⟩
    · rw [h1.2.2.1]
      have e : blockCapacity = 496 := rfl
      split <;> omega
    · rw [(trailer_blockOf _ _ _ _ chunk rfl rfl rfl rfl h).2, (trailer_blockOf _ _ _ _ chunk rfl rfl rfl rfl h).2]
      have key : ∀ (no first cp : Bytes), no.length = 4 → first.length = 2 → cp.length = 4 →
          (no ++ beEnc 2 (if chunk.length = blockCapacity then blockSize else 12 + chunk.length) ++ first ++ cp ++ chunk ++
            List.replicate (blockCapacity - chunk.length) (0 : UInt8)).drop 12 = chunk ++ List.replicate (blockCapacity - chunk.length) 0 := by
        intro no first cp h1 h2 h3
        rw [List.append_assoc]
        exact List.drop_left' (by simp only [List.length_append, beEnc_length', h1, h2, h3])
      rw [key _ _ _ rfl rfl rfl, key _ _ _ rfl rfl rfl]
  exact ⟨zeroPreamble, zeroPreamble, _, _, zeroPreamble_valid, zeroPreamble_valid, .cons hs .nil, rfl, rfl⟩

/-! ## C70 -/

/-- A log file that has been written round: behind the newest records there are older blocks, and these begin with the end `rest` of a record
whose beginning has been overwritten.  The first older block says where the first complete record begins in it. -/
structure Wrapped (newer older : List Item) (cutItem : Item) (rest content : Bytes) : Prop where
  /-- the beginning of the record is gone, its end is there -/
  suffix : rest <:+ cutItem.enc
  missing : rest ≠ cutItem.enc
  file : ∃ (p : Preamble) (new : List Bytes) (chunk : Bytes) (old blocksNew : List Bytes) (block : Bytes) (blocksOld : List Bytes), p.Valid ∧
    All2 IsBlock new blocksNew ∧ IsBlock chunk block ∧ All2 IsBlock old blocksOld ∧ new.flatten = newer.flatMap Item.enc ∧
    chunk ++ old.flatten = rest ++ older.flatMap Item.enc ∧ firstGroup block = 12 + rest.length ∧
    content = p.bytes ++ (blocksNew ++ block :: blocksOld).flatten

/-- **C70**, as stated: of such a file the statements of the complete records are printed and nothing else. -/
def C70_statement : Prop :=
  ∀ (cfg : RCfg) (spare : Nat) (newer older : List Item) (new old : List (List Bytes)) (cutItem : Item) (rest content : Bytes) (out : Out),
    Wrapped newer older cutItem rest content → cutItem.Fits → (∀ it ∈ newer ++ older, it.Fits) → All2 (Lines cfg) newer new → All2 (Lines cfg) older old →
    Ahead newer → Ahead older → 10 ≤ (older.flatMap Item.enc).length → content.length < 2 ^ 32 →
    parseRedoLogs cfg [.ok content] spare out = .ok none (out ++ new.flatten ++ old.flatten)

/-- What is parsed: the rest of the overwritten record is taken for the beginning of one, wherever the first record of the block begins. -/
theorem C70_stream (cfg : RCfg) (spare : Nat) {newer older : List Item} {cutItem : Item} {rest content : Bytes} (h : Wrapped newer older cutItem rest content) :
    parseRedoLogs cfg [.ok content] spare = parseRedoBlockData cfg ⟨newer.flatMap Item.enc ++ (rest ++ older.flatMap Item.enc), spare⟩ := by
  obtain ⟨p, new, chunk, old, bn, b, bo, hp, h1, h2, h3, h4, h5, _, rfl⟩ := h.file
  have hall : ∀ {l m : List Bytes}, All2 IsBlock l m → All2 IsBlock (l ++ chunk :: old) (m ++ b :: bo) := by
    intro l m hlm
    induction hlm with
    | nil => exact .cons h2 h3
    | cons h _ ih => exact .cons h ih
  have hf : IsLogFile (new ++ chunk :: old) (p.bytes ++ (bn ++ b :: bo).flatten) :=
    ⟨p, _, [], hp, hall h1, Or.inl rfl, by rw [List.append_nil]⟩
  rw [C38_parse cfg [.ok (p.bytes ++ (bn ++ b :: bo).flatten)] [new ++ chunk :: old] spare (.cons ⟨_, rfl, hf⟩ .nil)]
  congr 2
  rw [List.flatten_cons, List.flatten_nil, List.append_nil, List.flatten_append, List.flatten_cons, h4, h5]

theorem skip_rest (cfg : RCfg) (s : Stream) (rest : Bytes) (hr : ∀ b ∈ rest, ¬ DocumentedType (typeOf b)) (pre suf : Bytes) (hd : s.data = pre ++ (rest ++ suf))
    (h10 : 10 ≤ suf.length) (out : Out) (fuel : Nat) :
    redoLoop cfg s (rest.length + fuel) ⟨pre.length, out⟩ = redoLoop cfg s fuel ⟨(pre ++ rest).length, out⟩ := by
  induction rest generalizing pre with
  | nil => rw [List.length_nil, Nat.zero_add, List.append_nil]
  | cons b rest ih =>
    have hlen : s.data.length = pre.length + (1 + (rest.length + suf.length)) := by
      rw [hd]; simp only [List.length_append, List.length_cons]; omega
    have hb : s.data[pre.length]? = some b := by
      rw [hd, List.getElem?_append_right (Nat.le_refl _), Nat.sub_self]; rfl
    have step := C47_skip_partial cfg s ⟨pre.length, out⟩ b hb (by show pre.length + 11 ≤ _; omega) (hr b List.mem_cons_self)
    have := ih (fun x hx => hr x (List.mem_cons_of_mem _ hx)) (pre ++ [b]) (by rw [hd]; simp)
    rw [show (b :: rest).length + fuel = rest.length + fuel + 1 by rw [List.length_cons]; omega, redoLoop, getPos_bind,
      if_neg (by show ¬ s.data.length < pre.length + 5; omega), GoM.bind_ok step]
    dsimp only
    rw [show pre.length + 1 = (pre ++ [b]).length by simp, this]
    congr 2
    simp

/-- **C70 (partial).** True if no byte of the rest of the overwritten record is the type of a record.  (Missing: all other rests; see
`C70_forged`.) -/
theorem C70_skipped_partial (cfg : RCfg) (spare : Nat) (newer older : List Item) (new old : List (List Bytes)) (cutItem : Item) (rest content : Bytes)
    (out : Out) (hw : Wrapped newer older cutItem rest content) (hfit : ∀ it ∈ newer ++ older, it.Fits) (hn : All2 (Lines cfg) newer new)
    (ho : All2 (Lines cfg) older old) (ha : Ahead older) (h10 : 10 ≤ (older.flatMap Item.enc).length)
    (hl : (newer.flatMap Item.enc ++ (rest ++ older.flatMap Item.enc)).length < 2 ^ 32) (hr : ∀ b ∈ rest, ¬ DocumentedType (typeOf b)) :
    parseRedoLogs cfg [.ok content] spare out = .ok none (out ++ new.flatten ++ old.flatten) := by
  rw [C70_stream cfg spare hw]
  unfold parseRedoBlockData
  dsimp only
  have e1 := items_length newer
  have e2 := items_length older
  obtain ⟨k, hk⟩ : ∃ k, (newer.flatMap Item.enc ++ (rest ++ older.flatMap Item.enc)).length + 1 = newer.length + (rest.length + (older.length + (k + 1))) := by
    refine ⟨(newer.flatMap Item.enc).length - newer.length + ((older.flatMap Item.enc).length - older.length), ?_⟩
    simp only [List.length_append]
    omega
  generalize hs : newer.flatMap Item.enc ++ (rest ++ older.flatMap Item.enc) = d at *
  have s1 := C42_stream_partial cfg ⟨d, spare⟩ newer new (fun it h => hfit it (List.mem_append_left _ h)) hn hl [] (rest ++ older.flatMap Item.enc)
    (by rw [List.nil_append]; exact hs.symm) (by rw [List.length_append]; omega) out (rest.length + (older.length + (k + 1)))
  have s2 := skip_rest cfg ⟨d, spare⟩ rest hr ([] ++ newer.flatMap Item.enc) (older.flatMap Item.enc) hs.symm h10 (out ++ new.flatten) (older.length + (k + 1))
  obtain ⟨q, s3⟩ := ends_lines cfg ⟨d, spare⟩ older old (fun it h => hfit it (List.mem_append_right _ h)) ho hl ([] ++ newer.flatMap Item.enc ++ rest)
    (by rw [← hs]; simp) ha (out ++ new.flatten) k
  rw [hk, show (⟨0, out⟩ : RS) = ⟨([] : Bytes).length, out⟩ from rfl, s1, s2, s3]

/-- **C70, forged records.** If the rest of the overwritten record looks like records it is taken for them, and their statements are printed. -/
theorem C70_forged (cfg : RCfg) (spare : Nat) (newer forged older : List Item) (new fake old : List (List Bytes)) (cutItem : Item) (content : Bytes)
    (out : Out) (hw : Wrapped newer older cutItem (forged.flatMap Item.enc) content) (hfit : ∀ it ∈ newer ++ (forged ++ older), it.Fits)
    (hn : All2 (Lines cfg) newer new) (hk : All2 (Lines cfg) forged fake) (ho : All2 (Lines cfg) older old) (ha : Ahead (newer ++ (forged ++ older)))
    (hl : ((newer ++ (forged ++ older)).flatMap Item.enc).length < 2 ^ 32) :
    parseRedoLogs cfg [.ok content] spare out = .ok none (out ++ (new.flatten ++ (fake.flatten ++ old.flatten))) := by
  have hall : ∀ {l l' : List Item} {m m' : List (List Bytes)}, All2 (Lines cfg) l m → All2 (Lines cfg) l' m' → All2 (Lines cfg) (l ++ l') (m ++ m') := by
    intro l l' m m' h h'
    induction h with
    | nil => exact h'
    | cons h _ ih => exact .cons h ih
  rw [C70_stream cfg spare hw, ← List.flatMap_append, ← List.flatMap_append,
    C42_log_partial cfg spare _ (new ++ (fake ++ old)) hfit (hall hn (hall hk ho)) ha hl out, List.flatten_append, List.flatten_append]

/-- the column of the example of `RedoUpdate` -/
def wrapCol : Column := { name := b! "c", ftype := 12, mtype := 15, len := 20 }

def wrapUpdate (v : Bytes) : Item := .record true 0 300 (.undoInsert (exUndo (some v)))

/-- a page is written; the bytes written are those of a log record with an update -/
def wrapWrite (v : Bytes) : Item := .record true 5 3 (.writeString 120 (wrapUpdate v).enc)

def wrapOld : List Item := [.record true 5 3 (.bytes2 120 77), .record true 5 3 (.bytes2 120 78)]

def wrapFile (first : Nat) (chunk : Bytes) : Bytes := zeroPreamble.bytes ++ ([] ++ [blockOf [0, 0, 0, 1] (beEnc 2 first) [0, 0, 0, 0] [1, 2, 3, 4] chunk]).flatten

theorem first_blockOf (no first cp trailer chunk : Bytes) (h1 : no.length = 4) (h2 : first.length = 2) :
    firstGroup (blockOf no first cp trailer chunk) = beVal first := by
  unfold firstGroup numAt blockOf
  simp only [List.append_assoc]
  rw [← List.append_assoc, List.drop_left' (by rw [List.length_append, h1, beEnc_length']), List.take_left' h2]

theorem wrap_old_lines (cfg : RCfg) : All2 (Lines cfg) wrapOld [[], []] := .cons (.other trivial nofun) (.cons (.other trivial nofun) .nil)

theorem wrap_update_line (v : Bytes) (hv : v.length < 100) : ∃ line, Lines (exCfg wrapCol) (wrapUpdate v) [line] := by
  have hrec := exRecorded wrapCol (.varchar v) rfl trivial hv
  refine ⟨_, .update hrec ⟨Or.inl rfl, Or.inl rfl⟩ ?_ ?_⟩
  · intro w hw
    have : w = .int 4 7 := List.mem_singleton.mp hw
    subst this
    exact ⟨⟨trivial, rfl, nofun⟩, rfl⟩
  · intro e he w hw
    have : e = (3, some (.varchar v)) := List.mem_singleton.mp he
    subst this
    cases hw
    exact ⟨trivial, rfl, nofun⟩

theorem wrap_fits : ∀ it ∈ [wrapUpdate (b! "it")] ++ wrapOld, it.Fits := by
  intro it hit
  simp only [wrapOld, List.cons_append, List.nil_append, List.mem_cons, List.not_mem_nil, or_false] at hit
  rcases hit with rfl | rfl | rfl
  · exact ⟨by decide, by decide, (exRecorded wrapCol (.varchar (b! "it")) rfl trivial (by decide)).fits⟩
  · exact ⟨by decide, by decide, by show 77 < 2 ^ 32; decide⟩
  · exact ⟨by decide, by decide, by show 78 < 2 ^ 32; decide⟩

theorem wrapFile_is (cutItem : Item) (rest : Bytes) (hs : rest <:+ cutItem.enc) (hm : rest ≠ cutItem.enc)
    (hl : (rest ++ wrapOld.flatMap Item.enc).length ≤ 496) :
    Wrapped [] wrapOld cutItem rest (wrapFile (12 + rest.length) (rest ++ wrapOld.flatMap Item.enc)) where
  suffix := hs
  missing := hm
  file := by
    refine ⟨zeroPreamble, [], _, [], [], _, [], zeroPreamble_valid, .nil, blockOf_is _ _ _ _ _ rfl (beEnc_length' 2 _) rfl rfl hl, .nil, rfl,
      by rw [List.flatten_nil, List.append_nil], ?_, rfl⟩
    rw [first_blockOf _ _ _ _ _ rfl (beEnc_length' 2 _), beVal_beEnc (w := 2)]
    rw [List.length_append] at hl
    omega

/-- **C70 is false:** the bytes written to a page are taken for a record, and an update that never was is printed. -/
theorem C70_false : ¬ C70_statement := by
  intro h
  obtain ⟨line, hline⟩ := wrap_update_line (b! "it") (by decide)
  have hlen : (([wrapUpdate (b! "it")] ++ wrapOld).flatMap Item.enc).length < 200 := by decide
  have hlen' : ((wrapUpdate (b! "it")).enc ++ wrapOld.flatMap Item.enc).length < 200 := hlen
  have hw := wrapFile_is (wrapWrite (b! "it")) (wrapUpdate (b! "it")).enc (by decide) (by decide) (by omega)
  have hf := C70_forged (exCfg wrapCol) 0 [] [wrapUpdate (b! "it")] wrapOld [] [[line]] [[], []] (wrapWrite (b! "it")) _ []
    (by rw [List.flatMap_cons, List.flatMap_nil, List.append_nil]; exact hw) wrap_fits .nil (.cons hline .nil) (wrap_old_lines _)
    ⟨by decide, by decide, by decide, trivial⟩ (by rw [List.nil_append]; omega)
  have := h (exCfg wrapCol) 0 [] wrapOld [] [[], []] (wrapWrite (b! "it")) _ _ [] hw
    ⟨by decide, by decide, by show (wrapUpdate (b! "it")).enc.length < 2 ^ 16; decide⟩ (fun it hit => wrap_fits it (List.mem_cons_of_mem _ hit)) .nil
    (wrap_old_lines _) trivial ⟨by decide, by decide, trivial⟩ (by decide) ?_
  · rw [hf] at this
    injection this with _ this
    cases this
  · have hb := blockOf_is [0, 0, 0, 1] (beEnc 2 (12 + (wrapUpdate (b! "it")).enc.length)) [0, 0, 0, 0] [1, 2, 3, 4]
      ((wrapUpdate (b! "it")).enc ++ wrapOld.flatMap Item.enc) rfl (beEnc_length' 2 _) rfl rfl (by rw [show blockCapacity = 496 from rfl]; omega)
    have hb1 : (blockOf [0, 0, 0, 1] (beEnc 2 (12 + (wrapUpdate (b! "it")).enc.length)) [0, 0, 0, 0] [1, 2, 3, 4]
      ((wrapUpdate (b! "it")).enc ++ wrapOld.flatMap Item.enc)).length = 512 := hb.1
    unfold wrapFile
    obtain ⟨z1, z2, z3, z4, _⟩ := zeroPreamble_valid
    rw [List.length_append, List.nil_append, List.flatten_cons, List.flatten_nil, List.append_nil, hb1]
    simp only [Preamble.bytes, List.length_append, z1, z2, z3, z4, show blockSize = 512 from rfl]
    omega

/-- the hypotheses of `C70_skipped_partial`: the rest of the overwritten record is a text -/
example : Wrapped [] wrapOld (.record true 5 3 (.writeString 120 (b! "lost text"))) (b! "text")
    (wrapFile 16 (b! "text" ++ wrapOld.flatMap Item.enc)) ∧ ∀ b ∈ b! "text", ¬ DocumentedType (typeOf b) :=
  ⟨wrapFile_is _ _ (by decide) (by decide) (by decide), by unfold DocumentedType typeOf; decide⟩

end Verif.Props
