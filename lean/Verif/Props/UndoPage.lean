import Verif.Model.Todo
import Verif.Spec.UndoPage
import Verif.Proofs.Pad
import Verif.Proofs.RedoSync
import Verif.Proofs.Pages
import Verif.Props.Ints
/-!
# C61: undo pages (`todo.go`)
-/

namespace Verif.Props
open Verif Spec

/-- the line printed for a field -/
def fieldLine (name : Bytes) (n : Nat) : Bytes := b! "the " ++ name ++ b! " is  " ++ dec n

/-- The report on an undo page: the fields of the headers, the position of the second record and of the first one, and the table id. -/
def undoReport (d : Bytes) (next : Nat) (tableId : Nat) : List Bytes :=
  [fieldLine (b! "TRX_UNDO_PAGE_TYPE") (field d TRX_UNDO_PAGE_TYPE),
   fieldLine (b! "TRX_UNDO_PAGE_START") (field d TRX_UNDO_PAGE_START),
   fieldLine (b! "TRX_UNDO_PAGE_FREE") (field d TRX_UNDO_PAGE_FREE),
   fieldLine (b! "TRX_UNDO_STATE") (field d TRX_UNDO_STATE),
   fieldLine (b! "TRX_UNDO_LAST_LOG") (field d TRX_UNDO_LAST_LOG),
   fieldLine (b! "TRX_UNDO_TRX_ID") (field d TRX_UNDO_TRX_ID),
   fieldLine (b! "TRX_UNDO_TRX_NO") (field d TRX_UNDO_TRX_NO),
   fieldLine (b! "TRX_UNDO_DEL_MARKS") (field d TRX_UNDO_DEL_MARKS),
   fieldLine (b! "TRX_UNDO_LOG_START") (field d TRX_UNDO_LOG_START),
   fieldLine (b! "TRX_UNDO_XID_EXISTS") (field d TRX_UNDO_XID_EXISTS),
   fieldLine (b! "TRX_UNDO_DICT_TRANS") (field d TRX_UNDO_DICT_TRANS),
   fieldLine (b! "TRX_UNDO_TABLE_ID") (field d TRX_UNDO_TABLE_ID),
   fieldLine (b! "TRX_UNDO_NEXT_LOG") (field d TRX_UNDO_NEXT_LOG),
   fieldLine (b! "TRX_UNDO_PREV_LOG") (field d TRX_UNDO_PREV_LOG),
   dec next ++ b! " " ++ dec (field d TRX_UNDO_LOG_START - TRX_UNDO_PAGE_HDR + 2),
   b! "table id is  " ++ dec tableId]

/-- **C61**, as stated: for every page whose first undo record begins where TRX_UNDO_LOG_START says. -/
def C61_statement : Prop :=
  ∀ (d : Bytes) (p : Page) (next : Nat) (type : UInt8) (undoNo tableId : Nat) (out : Out), d.length = pageSize → parseFilHeader d = some p →
    38 ≤ field d TRX_UNDO_LOG_START → next < 2 ^ 16 → undoNo < 2 ^ 64 → tableId < 2 ^ 64 →
    UndoRecordAt d (field d TRX_UNDO_LOG_START) next type undoNo tableId →
    parseUndoPageHeader p out = .ok p (out ++ undoReport d next tableId)

theorem printField_bind {β : Type} (name : Bytes) (n : Nat) (k : Nat → GoM Out β) (out : Out) :
    (printField name (some n) >>= k) out = k n (out ++ [fieldLine name n]) := id rfl

theorem println_bind {β : Type} (l : Bytes) (k : Unit → GoM Out β) (out : Out) : (println l >>= k) out = k () (out ++ [l]) := id rfl

/-- a slice of the page without its file header -/
theorem slice38 (d pre rest : Bytes) (h : d = pre ++ rest) (hp : 38 ≤ pre.length) : sliceFrom (d.drop 38) (pre.length - 38) = some rest := by
  subst h
  unfold sliceFrom
  rw [if_pos (by simp; omega), List.drop_drop, show 38 + (pre.length - 38) = pre.length by omega, List.drop_left]

/-- The low 32 bits of a number alone take no more bytes than the number. -/
theorem size_le (n : Nat) : (compEnc (n % 2 ^ 32)).length ≤ (ullMuchEnc n).length := by
  unfold ullMuchEnc
  split
  · next h => exact Nat.le_of_eq (by rw [Nat.mod_eq_of_lt h])
  · simp only [List.length_cons, List.length_append]
    omega

/-- what follows the type of the record -/
theorem record_drop {d : Bytes} {start next undoNo tableId : Nat} {type : UInt8} (hr : UndoRecordAt d start next type undoNo tableId) :
    ∃ post, d.drop (start + 3) = ullMuchEnc undoNo ++ (ullMuchEnc tableId ++ post) := by
  obtain ⟨pre, post, e, hpre⟩ := hr
  refine ⟨post, ?_⟩
  have hl : (pre ++ (beEnc 2 next ++ [type])).length = start + 3 := by simp [hpre]
  have e2 : d = (pre ++ (beEnc 2 next ++ [type])) ++ (ullMuchEnc undoNo ++ (ullMuchEnc tableId ++ post)) := by rw [e]; simp
  rw [e2, ← hl, List.drop_left]

/-- **C61, what is printed, for all record numbers:** the fields are right; the table id is read behind as many bytes as the low 32 bits of
the record number take on their own. -/
theorem C61_printed (d : Bytes) (p : Page) (next : Nat) (type : UInt8) (undoNo tableId shown : Nat) (out : Out) (hd : d.length = pageSize)
    (hp : parseFilHeader d = some p) (hs : 38 ≤ field d TRX_UNDO_LOG_START) (hn : next < 2 ^ 16) (hu : undoNo < 2 ^ 64)
    (hr : UndoRecordAt d (field d TRX_UNDO_LOG_START) next type undoNo tableId)
    (hv : matchUllReadMuchCompressed (d.drop (field d TRX_UNDO_LOG_START + 3 + (compEnc (undoNo % 2 ^ 32)).length)) = some (shown, none)) :
    parseUndoPageHeader p out = .ok p (out ++ undoReport d next shown) := by
  have hd' : d.length = 16384 := hd
  rw [parseFilHeader_eq, if_pos (by omega)] at hp
  cases hp
  obtain ⟨pre, post, e, hpre⟩ := hr
  have hstart : field d TRX_UNDO_LOG_START < 65536 := by
    have := congrArg List.length e
    rw [List.length_append] at this
    omega
  unfold parseUndoPageHeader
  simp only [show (rawPage d).data = d.drop 38 from rfl, read8_eq, read2_eq, read1_eq]
  simp only [read_drop d 38 0 (w := 2) (by omega), read_drop d 38 2 (w := 2) (by omega), read_drop d 38 4 (w := 2) (by omega),
    read_drop d 38 18 (w := 2) (by omega), read_drop d 38 20 (w := 2) (by omega), read_drop d 38 48 (w := 8) (by omega),
    read_drop d 38 56 (w := 8) (by omega), read_drop d 38 64 (w := 2) (by omega), read_drop d 38 66 (w := 2) (by omega),
    read_drop d 38 68 (w := 1) (by omega), read_drop d 38 69 (w := 1) (by omega), read_drop d 38 70 (w := 8) (by omega),
    read_drop d 38 78 (w := 2) (by omega), read_drop d 38 80 (w := 2) (by omega)]
  have hf : numAt d (38 + 66) 2 = field d TRX_UNDO_LOG_START := rfl
  rw [hf]
  have hpos : sub64 (field d TRX_UNDO_LOG_START) 38 = pre.length - 38 := by
    unfold sub64
    omega
  have hl2 : (beEnc 2 next).length = 2 := beEnc_length _ _
  have s3 := slice38 d (pre ++ (beEnc 2 next ++ [type])) (ullMuchEnc undoNo ++ (ullMuchEnc tableId ++ post)) (by rw [e]; simp) (by simp; omega)
  have n3 : (pre ++ (beEnc 2 next ++ [type])).length - 38 = pre.length - 38 + 3 := by simp; omega
  rw [n3] at s3
  have ed : d.drop 38 = pre.drop 38 ++ beEnc 2 next ++ (type :: (ullMuchEnc undoNo ++ (ullMuchEnc tableId ++ post))) := by
    rw [congrArg (List.drop 38) e, List.drop_append_of_le_length (by omega), List.append_assoc]
  have hpl : (pre.drop 38).length = pre.length - 38 := List.length_drop
  have r1 : readW 2 (d.drop 38) (pre.length - 38) = some next := by
    rw [ed, ← hpl]
    exact readW_beEnc _ _ (by omega)
  obtain ⟨t, r2⟩ : ∃ t, readW 1 (d.drop 38) (pre.length - 38 + 2) = some t := by
    refine ⟨_, read_drop d 38 _ (w := 1) ?_⟩
    have := congrArg List.length e
    simp only [List.length_append, List.length_cons, hl2] at this
    omega
  have hlen : pre.length + 3 + (ullMuchEnc undoNo).length ≤ 16384 := by
    have := congrArg List.length e
    simp only [List.length_append, List.length_cons, hl2] at this
    omega
  have hle := size_le undoNo
  have s4 : sliceFrom (d.drop 38) (pre.length - 38 + 3 + (compEnc (undoNo % 2 ^ 32)).length)
      = some (d.drop (field d TRX_UNDO_LOG_START + 3 + (compEnc (undoNo % 2 ^ 32)).length)) := by
    unfold sliceFrom
    rw [if_pos (by rw [List.length_drop]; omega), List.drop_drop, show 38 + (pre.length - 38 + 3 + (compEnc (undoNo % 2 ^ 32)).length)
      = field d TRX_UNDO_LOG_START + 3 + (compEnc (undoNo % 2 ^ 32)).length by omega]
  have m1 : matchUllReadMuchCompressed (ullMuchEnc undoNo ++ (ullMuchEnc tableId ++ post)) = some (undoNo % 2 ^ 32, none) := by
    by_cases h : undoNo < 2 ^ 32
    · rw [(C05_below_2_32_partial undoNo _ h).1, Nat.mod_eq_of_lt h]
    · exact (C05_high_word_lost undoNo _ (by omega) hu).1
  have m2 : machUllGetMuchCompressedSize (undoNo % 2 ^ 32) = (compEnc (undoNo % 2 ^ 32)).length := by
    have hlt : undoNo % 2 ^ 32 < 2 ^ 32 := Nat.mod_lt _ (by decide)
    rw [(C05_below_2_32_partial _ [] hlt).2, ullMuchEnc, if_pos hlt]
  iterate 14 rw [printField_bind]
  rw [hpos, r1, GoM.lift_some_bind, println_bind, r2, GoM.lift_some_bind, s3, Option.bind_some, m1, GoM.lift_some_bind, m2, s4,
    Option.bind_some, hv, GoM.lift_some_bind, println_bind]
  have hfin : pre.length - 38 + 2 = field d TRX_UNDO_LOG_START - TRX_UNDO_PAGE_HDR + 2 := by rw [hpre]; rfl
  rw [hfin]
  show R.ok _ _ = R.ok _ _
  unfold undoReport
  simp only [List.append_assoc, List.cons_append, List.nil_append]
  rfl

/-- **C61, what is printed:** for record numbers below 2^32 the fields are right, of the table id only the low 32 bits are printed. -/
theorem C61_report (d : Bytes) (p : Page) (next : Nat) (type : UInt8) (undoNo tableId : Nat) (out : Out) (hd : d.length = pageSize)
    (hp : parseFilHeader d = some p) (hs : 38 ≤ field d TRX_UNDO_LOG_START) (hn : next < 2 ^ 16) (hu : undoNo < 2 ^ 32) (ht : tableId < 2 ^ 64)
    (hr : UndoRecordAt d (field d TRX_UNDO_LOG_START) next type undoNo tableId) :
    parseUndoPageHeader p out = .ok p (out ++ undoReport d next (tableId % 2 ^ 32)) := by
  refine C61_printed d p next type undoNo tableId _ out hd hp hs hn (by omega) hr ?_
  obtain ⟨post, e⟩ := record_drop hr
  rw [← List.drop_drop, e, Nat.mod_eq_of_lt hu, show compEnc undoNo = ullMuchEnc undoNo by rw [ullMuchEnc, if_pos hu], List.drop_left]
  by_cases h : tableId < 2 ^ 32
  · rw [(C05_below_2_32_partial tableId post h).1, Nat.mod_eq_of_lt h]
  · exact (C05_high_word_lost tableId post (by omega) ht).1

/-- **C61, large record numbers:** if the record number is 2^32 or more and its low 32 bits take one byte, the high 32 bits of the record
number are printed as the table id, whatever the table. -/
theorem C61_wrong_table (d : Bytes) (p : Page) (next : Nat) (type : UInt8) (undoNo tableId : Nat) (out : Out) (hd : d.length = pageSize)
    (hp : parseFilHeader d = some p) (hs : 38 ≤ field d TRX_UNDO_LOG_START) (hn : next < 2 ^ 16) (hu : undoNo < 2 ^ 64)
    (hbig : 2 ^ 32 ≤ undoNo) (hlow : undoNo % 2 ^ 32 < 128)
    (hr : UndoRecordAt d (field d TRX_UNDO_LOG_START) next type undoNo tableId) :
    parseUndoPageHeader p out = .ok p (out ++ undoReport d next (undoNo / 2 ^ 32)) := by
  refine C61_printed d p next type undoNo tableId _ out hd hp hs hn hu hr ?_
  obtain ⟨post, e⟩ := record_drop hr
  have h1 : (compEnc (undoNo % 2 ^ 32)).length = 1 := by rw [compEnc, if_pos (by omega), beEnc_length]
  have hhi : undoNo / 2 ^ 32 < 2 ^ 32 := by omega
  have h2 : ullMuchEnc undoNo = 0xFF :: (ullMuchEnc (undoNo / 2 ^ 32) ++ compEnc (undoNo % 2 ^ 32)) := by
    rw [ullMuchEnc, if_neg (by omega), ullMuchEnc, if_pos hhi]
  rw [← List.drop_drop, e, h1, h2, List.cons_append, List.drop_one, List.tail_cons, List.append_assoc]
  exact (C05_below_2_32_partial _ _ hhi).1

/-- **C61 (partial).** The fields of the headers and the first record are reported as stored, for record numbers and table ids below
2^32.  Missing: larger ones (`C61_report`, `C61_false`). -/
theorem C61_below_2_32_partial (d : Bytes) (p : Page) (next : Nat) (type : UInt8) (undoNo tableId : Nat) (out : Out) (hd : d.length = pageSize)
    (hp : parseFilHeader d = some p) (hs : 38 ≤ field d TRX_UNDO_LOG_START) (hn : next < 2 ^ 16) (hu : undoNo < 2 ^ 32) (ht : tableId < 2 ^ 32)
    (hr : UndoRecordAt d (field d TRX_UNDO_LOG_START) next type undoNo tableId) :
    parseUndoPageHeader p out = .ok p (out ++ undoReport d next tableId) := by
  rw [C61_report d p next type undoNo tableId out hd hp hs hn hu (by omega) hr, Nat.mod_eq_of_lt ht]

/-- A record position before the end of the file header aborts the program. -/
theorem C61_aborts (d : Bytes) (p : Page) (out : Out) (hd : d.length = pageSize) (hp : parseFilHeader d = some p)
    (hs : field d TRX_UNDO_LOG_START < 38) : ∃ o, parseUndoPageHeader p out = .panic o := by
  have hd' : d.length = 16384 := hd
  rw [parseFilHeader_eq, if_pos (by omega)] at hp
  cases hp
  unfold parseUndoPageHeader
  simp only [show (rawPage d).data = d.drop 38 from rfl, read8_eq, read2_eq, read1_eq]
  simp only [read_drop d 38 0 (w := 2) (by omega), read_drop d 38 2 (w := 2) (by omega), read_drop d 38 4 (w := 2) (by omega),
    read_drop d 38 18 (w := 2) (by omega), read_drop d 38 20 (w := 2) (by omega), read_drop d 38 48 (w := 8) (by omega),
    read_drop d 38 56 (w := 8) (by omega), read_drop d 38 64 (w := 2) (by omega), read_drop d 38 66 (w := 2) (by omega),
    read_drop d 38 68 (w := 1) (by omega), read_drop d 38 69 (w := 1) (by omega), read_drop d 38 70 (w := 8) (by omega),
    read_drop d 38 78 (w := 2) (by omega), read_drop d 38 80 (w := 2) (by omega)]
  have hf : numAt d (38 + 66) 2 = field d TRX_UNDO_LOG_START := rfl
  rw [hf]
  have hpos : 16384 ≤ sub64 (field d TRX_UNDO_LOG_START) 38 := by
    unfold sub64
    omega
  have r1 : readW 2 (d.drop 38) (sub64 (field d TRX_UNDO_LOG_START) 38) = none := by
    unfold readW
    rw [if_neg (by rw [List.length_drop]; omega)]
  iterate 14 rw [printField_bind]
  rw [r1, GoM.lift_none_bind]
  exact ⟨_, rfl⟩

/-! ## A page with a table id above 2^32, and one with a record number above 2^32 -/

/-- an undo page: the first record at 120 -/
def undoTop : Bytes := List.replicate 104 0 ++ beEnc 2 120 ++ List.replicate 14 0
def undoPage (undoNo tableId : Nat) : Bytes := undoTop ++ (beEnc 2 200 ++ (12 :: (ullMuchEnc undoNo ++ ullMuchEnc tableId)))

theorem undoPage_record (undoNo tableId : Nat) : UndoRecordAt (pad (undoPage undoNo tableId)) 120 200 12 undoNo tableId := by
  refine ⟨undoTop, List.replicate (16384 - (undoPage undoNo tableId).length) 0, ?_, by decide⟩
  unfold pad
  generalize List.replicate (16384 - (undoPage undoNo tableId).length) (0 : UInt8) = z
  unfold undoPage
  simp only [List.append_assoc, List.cons_append]

theorem ullMuchEnc_length (n : Nat) : (ullMuchEnc n).length ≤ 11 := by
  unfold ullMuchEnc
  have h := fun n => compEnc_length_le n
  split
  · have := h n; omega
  · have := h (n / 2 ^ 32); have := h (n % 2 ^ 32)
    simp only [List.length_cons, List.length_append]
    omega

theorem undoPage_length (undoNo tableId : Nat) : 122 ≤ (undoPage undoNo tableId).length ∧ (undoPage undoNo tableId).length ≤ 300 := by
  have := ullMuchEnc_length tableId
  have := ullMuchEnc_length undoNo
  have h1 : undoTop.length = 120 := by decide
  unfold undoPage
  simp only [List.length_append, List.length_cons, beEnc_length, h1]
  omega

theorem undoPage_start (undoNo tableId : Nat) : field (pad (undoPage undoNo tableId)) TRX_UNDO_LOG_START = 120 := by
  have hl := undoPage_length undoNo tableId
  unfold field
  rw [numAt_pad _ _ _ (by show 104 + 2 ≤ _; omega)]
  unfold numAt undoPage
  rw [List.drop_append_of_le_length (by decide), List.take_append_of_le_length (by decide)]
  decide

/-- These pages meet the hypotheses of `C61_report` and `C61_wrong_table`. -/
theorem undoPage_meets (undoNo tableId : Nat) : ∃ d p, d = pad (undoPage undoNo tableId) ∧ d.length = pageSize ∧ parseFilHeader d = some p ∧
    38 ≤ field d TRX_UNDO_LOG_START ∧ UndoRecordAt d (field d TRX_UNDO_LOG_START) 200 12 undoNo tableId := by
  have hlen : (pad (undoPage undoNo tableId)).length = 16384 := pad_length _ (by have := undoPage_length undoNo tableId; omega)
  have hp : parseFilHeader (pad (undoPage undoNo tableId)) = some (rawPage (pad (undoPage undoNo tableId))) := by
    rw [parseFilHeader_eq, if_pos (by rw [hlen]; decide)]
  have hs := undoPage_start undoNo tableId
  have hr := undoPage_record undoNo tableId
  generalize pad (undoPage undoNo tableId) = d at *
  exact ⟨d, rawPage d, rfl, hlen, hp, by omega, by rw [hs]; exact hr⟩

/-- Record 1 of table 7 is reported as that of table 7, record 5 * 2^32 + 1 as that of table 5. -/
example : ∃ d p, d = pad (undoPage 1 7) ∧ parseFilHeader d = some p ∧ parseUndoPageHeader p [] = .ok p (undoReport d 200 7) := by
  obtain ⟨d, p, e, hl, hp, hs, hr⟩ := undoPage_meets 1 7
  exact ⟨d, p, e, hp, C61_report d p 200 12 1 7 [] hl hp hs (by decide) (by decide) (by decide) hr⟩

example : ∃ d p, d = pad (undoPage (5 * 2 ^ 32 + 1) 7) ∧ parseFilHeader d = some p ∧
    parseUndoPageHeader p [] = .ok p (undoReport d 200 5) := by
  obtain ⟨d, p, e, hl, hp, hs, hr⟩ := undoPage_meets (5 * 2 ^ 32 + 1) 7
  exact ⟨d, p, e, hp, C61_wrong_table d p 200 12 _ 7 [] hl hp hs (by decide) (by decide) (by decide) (by decide) hr⟩

theorem C61_false : ¬ C61_statement := by
  intro h
  obtain ⟨d, p, -, hlen, hp, hs, hr⟩ := undoPage_meets 1 (2 ^ 32 + 7)
  have e := C61_report d p 200 12 1 (2 ^ 32 + 7) [] hlen hp hs (by decide) (by decide) (by decide) hr
  rw [h d p 200 12 1 (2 ^ 32 + 7) [] hlen hp hs (by decide) (by decide) (by decide) hr] at e
  injection e with _ e
  unfold undoReport at e
  simp only [List.nil_append, List.cons.injEq, true_and] at e
  revert e
  decide

/-! ## The other functions of `todo.go` -/

/-- The type of a column is that of the first column with the name. -/
theorem C61_column_type (name : Bytes) (cs ds : List Column) (c : Column) (h : c.name = name) (hn : ∀ x ∈ cs, x.name ≠ name) :
    getColumnType name (cs ++ c :: ds) = c.ftype := by
  induction cs with
  | nil => rw [List.nil_append, getColumnType, if_pos h]
  | cons x cs ih =>
    rw [List.cons_append, getColumnType, if_neg (hn x (by simp))]
    exact ih fun y hy => hn y (by simp [hy])

example : getColumnType (b! "b") [{ name := b! "a", ftype := 6 }, { name := b! "b", ftype := 12 }] = 12 :=
  C61_column_type (b! "b") [{ name := b! "a", ftype := 6 }] [] { name := b! "b", ftype := 12 } rfl (by decide)

/-- No statement is ever made from a table definition. -/
theorem C61_no_structure (tables : TableMap) (content db name : Bytes) : recoveryTableStruct tables (.ok content) db name = some ([], none) := by
  unfold recoveryTableStruct
  dsimp only
  rw [parseFile_eq]
  rfl

end Verif.Props
