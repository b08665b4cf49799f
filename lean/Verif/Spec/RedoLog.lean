import Verif.Spec.Page
import Verif.Spec.Record
/-!
# Specification: redo log files

From log0log.h: a log file starts with four blocks of 512 bytes (header, checkpoint 1, an unused block, checkpoint 2).  The
rest are log blocks of 512 bytes: a 12-byte header, up to 496 bytes of log, a 4-byte trailer.  The two bytes at offset 4 of a
block are the number of bytes in use, counting the header; a full block has 512 there.
-/

namespace Verif.Spec

def blockSize : Nat := 512
def blockCapacity : Nat := 496

/-- The log block `b` holds the log bytes `chunk`. -/
def IsBlock (chunk b : Bytes) : Prop :=
  b.length = blockSize ∧ chunk.length ≤ blockCapacity ∧
  numAt b 4 2 = (if chunk.length = blockCapacity then blockSize else 12 + chunk.length) ∧ (b.drop 12).take chunk.length = chunk

/-- The four blocks at the beginning of a file.  The header block contains the NUL-terminated name of the creator at
offset 16. -/
structure Preamble where
  header : Bytes
  checkpoint1 : Bytes
  unused : Bytes
  checkpoint2 : Bytes

def Preamble.bytes (p : Preamble) : Bytes := p.header ++ p.checkpoint1 ++ p.unused ++ p.checkpoint2

def Preamble.Valid (p : Preamble) : Prop :=
  p.header.length = blockSize ∧ p.checkpoint1.length = blockSize ∧ p.unused.length = blockSize ∧
  p.checkpoint2.length = blockSize ∧ 0 ∈ p.header.drop 16

/-- nothing more, or a block that is not in use -/
def Unused (rest : Bytes) : Prop := rest = [] ∨ (blockSize ≤ rest.length ∧ numAt rest 4 2 = 0)

/-- The file holds the given pieces of the log, one per block. -/
def IsLogFile (chunks : List Bytes) (content : Bytes) : Prop :=
  ∃ (p : Preamble) (blocks : List Bytes) (rest : Bytes), p.Valid ∧ All2 IsBlock chunks blocks ∧ Unused rest ∧ content = p.bytes ++ blocks.flatten ++ rest

/-- Cut a log stream into the pieces that go into successive blocks. -/
def cut : Nat → Bytes → List Bytes
  | 0, _ => []
  | fuel + 1, s => if s = [] then [] else s.take blockCapacity :: cut fuel (s.drop blockCapacity)

/-- a block with given block number, first-record offset, checkpoint number and trailer -/
def blockOf (no first cp trailer chunk : Bytes) : Bytes :=
  no ++ beEnc 2 (if chunk.length = blockCapacity then blockSize else 12 + chunk.length) ++ first ++ cp ++ chunk ++
    List.replicate (blockCapacity - chunk.length) 0 ++ trailer

/-- `log_block_calc_checksum` of log0log.ic: the sum so far and the shift for the next byte -/
def sumStep (s : Nat × Nat) (b : UInt8) : Nat × Nat := (s.1 % 2 ^ 31 + b.toNat + b.toNat * 2 ^ s.2, if s.2 = 24 then 0 else s.2 + 1)

/-- the checksum of a log block: over everything but the trailer -/
def blockSum (b : Bytes) : Nat := ((b.take 508).foldl sumStep (1, 0)).1

/-- the checksum in the trailer is right -/
def SumOk (b : Bytes) : Prop := numAt b 508 4 = blockSum b

/-- `LOG_BLOCK_FIRST_REC_GROUP`: where in the block the first group of records begins -/
def firstGroup (b : Bytes) : Nat := numAt b 6 2

end Verif.Spec
