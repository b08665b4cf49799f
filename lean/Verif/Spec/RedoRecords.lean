import Verif.Spec.Ints
/-!
# Specification: redo log records

From the InnoDB sources of MySQL 5.7 (mtr0types.h, mtr0log.cc, log0recv.cc, page0cur.cc, btr0cur.cc, row0upd.cc, trx0rec.cc,
fil0fil.cc, page0zip.cc): how each record is written.  `compEnc` is `mach_write_compressed`, `ullCompEnc`
`mach_u64_write_compressed` and `ullMuchEnc` `mach_u64_write_much_compressed`.
-/

namespace Verif.Spec

/-- The description of the index that precedes the body of records for COMPACT pages (`mlog_open_and_write_index`). -/
structure IndexInfo where
  uniq : Nat
  lens : List Nat
deriving Repr, DecidableEq

def IndexInfo.enc (i : IndexInfo) : Bytes := beEnc 2 i.lens.length ++ (beEnc 2 i.uniq ++ i.lens.flatMap (beEnc 2))

/-- COMPACT pages: the index description; REDUNDANT pages: nothing. -/
def ixEnc : Option IndexInfo → Bytes
  | none => []
  | some i => i.enc

/-- The inserted record (`page_cur_insert_rec_write_log`): the end segment that differs from the previous record, and, if
needed, info bits, origin offset and mismatch index. -/
structure Insert where
  data : Bytes
  extra : Option (Nat × Nat × Nat)
deriving Repr, DecidableEq

def Insert.enc (i : Insert) : Bytes :=
  match i.extra with
  | none => compEnc (2 * i.data.length) ++ i.data
  | some (info, origin, mismatch) =>
    compEnc (2 * i.data.length + 1) ++ (beEnc 1 info ++ (compEnc origin ++ (compEnc mismatch ++ i.data)))

/-- `row_upd_write_sys_vals_to_log`: position of the system columns, roll pointer, transaction id -/
structure SysVals where
  pos : Nat
  roll : Nat
  trx : Nat
deriving Repr, DecidableEq

def SysVals.enc (v : SysVals) : Bytes := compEnc v.pos ++ (beEnc 7 v.roll ++ ullCompEnc v.trx)

/-- length of a NULL value -/
def SQL_NULL : Nat := 2 ^ 32 - 1

/-- length and bytes of a value; NULL has no bytes -/
def valueEnc : Option Bytes → Bytes
  | none => compEnc SQL_NULL
  | some v => compEnc v.length ++ v

/-- a field of an update vector: number and new (redo) or old (undo) value -/
def fieldEnc (f : Nat × Option Bytes) : Bytes := compEnc f.1 ++ valueEnc f.2

/-- `row_upd_index_write_log`: info bits, number of fields, fields -/
def updateEnc (info : Nat) (fields : List (Nat × Option Bytes)) : Bytes :=
  beEnc 1 info ++ (compEnc fields.length ++ fields.flatMap fieldEnc)

/-! ## Undo records (`trx_undo_page_report_insert`, `trx_undo_page_report_modify`) -/

/-- The contents of an undo record: kind 11 insert, 12 update of an existing row, 13 update of a delete-marked row, 14 delete
marking. -/
structure Undo where
  kind : Nat
  /-- the upper four bits of the type byte: compiler info and the flag for external columns -/
  flags : Nat
  undoNo : Nat
  tableId : Nat
  /-- info bits, transaction id and roll pointer of the old row version; not written for inserts -/
  info : Nat
  trx : Nat
  roll : Nat
  /-- the columns of the primary key -/
  key : List Bytes
  /-- the update vector; only written for the kinds 12 and 13 -/
  fields : List (Nat × Option Bytes)
  /-- ordering columns and virtual columns -/
  tail : Bytes
deriving Repr, DecidableEq

def Undo.sysEnc (u : Undo) : Bytes :=
  if u.kind = 11 then [] else beEnc 1 u.info ++ (ullCompEnc u.trx ++ ullCompEnc u.roll)

def keyEnc (k : List Bytes) : Bytes := k.flatMap fun v => compEnc v.length ++ v

def Undo.vecEnc (u : Undo) : Bytes :=
  if u.kind = 12 ∨ u.kind = 13 then compEnc u.fields.length ++ u.fields.flatMap fieldEnc else []

def Undo.enc (u : Undo) : Bytes :=
  beEnc 1 (u.flags * 16 + u.kind) ++ (ullMuchEnc u.undoNo ++ (ullMuchEnc u.tableId ++ (u.sysEnc ++ (keyEnc u.key ++ (u.vecEnc ++ u.tail)))))

/-! ## Records -/

inductive Rec where
  | bytes1 (off val : Nat)
  | bytes2 (off val : Nat)
  | bytes4 (off val : Nat)
  | bytes8 (off val : Nat)
  | recInsert (ix : Option IndexInfo) (off : Nat) (ins : Insert)
  | clustDeleteMark (ix : Option IndexInfo) (flags val : Nat) (sys : SysVals) (off : Nat)
  | secDeleteMark (ix : Option IndexInfo) (val off : Nat)
  | updateInPlace (ix : Option IndexInfo) (flags : Nat) (sys : SysVals) (off info : Nat) (fields : List (Nat × Option Bytes))
  | recDelete (ix : Option IndexInfo) (off : Nat)
  | listEndDelete (ix : Option IndexInfo) (off : Nat)
  | listStartDelete (ix : Option IndexInfo) (off : Nat)
  | listEndCopyCreated (ix : Option IndexInfo) (recs : List Insert)
  | pageReorganize (ix : Option IndexInfo)
  | zipPageReorganize (ix : IndexInfo) (level : Nat)
  | pageCreate (comp : Bool)
  | pageCreateRtree (comp : Bool)
  | undoInsert (u : Undo)
  | undoEraseEnd
  | undoInit (type : Nat)
  | undoHdrDiscard
  | undoHdrReuse (trx : Nat)
  | undoHdrCreate (trx : Nat)
  | recMinMark (comp : Bool) (off : Nat)
  | ibufBitmapInit
  | initFilePage
  | initFilePage2
  | writeString (off : Nat) (data : Bytes)
  | fileCreate (name : Bytes)
  | fileDelete (name : Bytes)
  | fileName (name : Bytes)
  | fileCreate2 (flags : Nat) (name : Bytes)
  | fileRename (old new : Bytes)
  | fileRename2 (old new : Bytes)
  | zipWriteNodePtr (off zoff ptr : Nat)
  | zipWriteBlobPtr (off zoff : Nat) (ref : Nat)
  | zipWriteHeader (off : Nat) (data : Bytes)
  | zipPageCompress (prev next : Nat) (data trailer : Bytes)
  | zipPageCompressNoData (ix : IndexInfo) (level : Nat)
  | truncate (lsn : Nat)
  | indexLoad (id : Nat)
deriving Repr, DecidableEq

def nameEnc (name : Bytes) : Bytes := beEnc 2 name.length ++ name

/-- the type byte (mtr0types.h) -/
def Rec.type : Rec → Nat
  | bytes1 .. => 1
  | bytes2 .. => 2
  | bytes4 .. => 4
  | bytes8 .. => 8
  | recInsert none .. => 9
  | recInsert (some _) .. => 38
  | clustDeleteMark none .. => 10
  | clustDeleteMark (some _) .. => 39
  | secDeleteMark none .. => 11
  | secDeleteMark (some _) .. => 40
  | updateInPlace none .. => 13
  | updateInPlace (some _) .. => 41
  | recDelete none .. => 14
  | recDelete (some _) .. => 42
  | listEndDelete none .. => 15
  | listEndDelete (some _) .. => 43
  | listStartDelete none .. => 16
  | listStartDelete (some _) .. => 44
  | listEndCopyCreated none .. => 17
  | listEndCopyCreated (some _) .. => 45
  | pageReorganize none => 18
  | pageReorganize (some _) => 46
  | zipPageReorganize .. => 53
  | pageCreate false => 19
  | pageCreate true => 37
  | pageCreateRtree false => 57
  | pageCreateRtree true => 58
  | undoInsert .. => 20
  | undoEraseEnd => 21
  | undoInit .. => 22
  | undoHdrDiscard => 23
  | undoHdrReuse .. => 24
  | undoHdrCreate .. => 25
  | recMinMark false _ => 26
  | recMinMark true _ => 36
  | ibufBitmapInit => 27
  | initFilePage => 29
  | initFilePage2 => 59
  | writeString .. => 30
  | fileCreate .. => 33
  | fileRename .. => 34
  | fileDelete .. => 35
  | fileCreate2 .. => 47
  | fileRename2 .. => 54
  | fileName .. => 55
  | zipWriteNodePtr .. => 48
  | zipWriteBlobPtr .. => 49
  | zipWriteHeader .. => 50
  | zipPageCompress .. => 51
  | zipPageCompressNoData .. => 52
  | truncate .. => 60
  | indexLoad .. => 61

/-- the body: what follows type, space id and page number -/
def Rec.body : Rec → Bytes
  | bytes1 off val | bytes2 off val | bytes4 off val => beEnc 2 off ++ compEnc val
  | bytes8 off val => beEnc 2 off ++ ullCompEnc val
  | recInsert ix off ins => ixEnc ix ++ (beEnc 2 off ++ ins.enc)
  | clustDeleteMark ix flags val sys off => ixEnc ix ++ (beEnc 1 flags ++ (beEnc 1 val ++ (sys.enc ++ beEnc 2 off)))
  | secDeleteMark ix val off => ixEnc ix ++ (beEnc 1 val ++ beEnc 2 off)
  | updateInPlace ix flags sys off info fields => ixEnc ix ++ (beEnc 1 flags ++ (sys.enc ++ (beEnc 2 off ++ updateEnc info fields)))
  | recDelete ix off | listEndDelete ix off | listStartDelete ix off => ixEnc ix ++ beEnc 2 off
  | listEndCopyCreated ix recs => ixEnc ix ++ (beEnc 4 (recs.flatMap Insert.enc).length ++ recs.flatMap Insert.enc)
  | pageReorganize ix => ixEnc ix
  | zipPageReorganize ix level | zipPageCompressNoData ix level => ix.enc ++ beEnc 1 level
  | pageCreate _ | pageCreateRtree _ | undoEraseEnd | undoHdrDiscard | ibufBitmapInit | initFilePage | initFilePage2 => []
  | undoInsert u => beEnc 2 u.enc.length ++ u.enc
  | undoInit type => compEnc type
  | undoHdrReuse trx | undoHdrCreate trx => ullCompEnc trx
  | recMinMark _ off => beEnc 2 off
  | writeString off data => beEnc 2 off ++ (beEnc 2 data.length ++ data)
  | fileCreate name | fileDelete name | fileName name => nameEnc name
  | fileCreate2 flags name => beEnc 4 flags ++ nameEnc name
  | fileRename old new | fileRename2 old new => nameEnc old ++ nameEnc new
  | zipWriteNodePtr off zoff ptr => beEnc 2 off ++ (beEnc 2 zoff ++ beEnc 4 ptr)
  | zipWriteBlobPtr off zoff ref => beEnc 2 off ++ (beEnc 2 zoff ++ beEnc 20 ref)
  | zipWriteHeader off data => beEnc 1 off ++ (beEnc 1 data.length ++ data)
  | zipPageCompress prev next data trailer =>
    beEnc 2 data.length ++ (beEnc 2 trailer.length ++ (beEnc 4 prev ++ (beEnc 4 next ++ (data ++ trailer))))
  | truncate lsn => beEnc 8 lsn
  | indexLoad id => beEnc 8 id

/-- An element of the log: a page or file record, possibly with the flag for mini-transactions of a single record, a
checkpoint, the end of a mini-transaction, or a dummy record. -/
inductive Item where
  | record (single : Bool) (space page : Nat) (r : Rec)
  | checkpoint (lsn : Nat)
  | multiRecEnd
  | dummy
deriving Repr, DecidableEq

def Item.enc : Item → Bytes
  | record single space page r =>
    beEnc 1 (r.type + if single then 128 else 0) ++ (compEnc space ++ (compEnc page ++ r.body))
  | checkpoint lsn => beEnc 1 56 ++ beEnc 8 lsn
  | multiRecEnd => beEnc 1 31
  | dummy => beEnc 1 32

/-! ## Sizes: what fits into the fields of the format -/

def IndexInfo.Fits (i : IndexInfo) : Prop := i.lens.length < 2 ^ 16

def ixFits : Option IndexInfo → Prop
  | none => True
  | some i => i.Fits

def Insert.Fits (i : Insert) : Prop :=
  2 * i.data.length + 1 < 2 ^ 32 ∧ ∀ x ∈ i.extra, x.2.1 < 2 ^ 32 ∧ x.2.2 < 2 ^ 32

def SysVals.Fits (v : SysVals) : Prop := v.pos < 2 ^ 32 ∧ v.trx < 2 ^ 64

def fieldFits (f : Nat × Option Bytes) : Prop := f.1 < 2 ^ 32 ∧ ∀ v ∈ f.2, v.length < SQL_NULL

def Undo.Fits (u : Undo) : Prop :=
  u.kind ∈ [11, 12, 13, 14] ∧ u.flags < 16 ∧ u.undoNo < 2 ^ 64 ∧ u.tableId < 2 ^ 64 ∧ u.trx < 2 ^ 64 ∧ u.roll < 2 ^ 64 ∧
  (∀ f ∈ u.fields, fieldFits f) ∧ u.enc.length < 2 ^ 16

def Rec.Fits : Rec → Prop
  | bytes1 _ val | bytes2 _ val | bytes4 _ val => val < 2 ^ 32
  | bytes8 _ val => val < 2 ^ 64
  | recInsert ix _ ins => ixFits ix ∧ ins.Fits
  | clustDeleteMark ix _ _ sys _ => ixFits ix ∧ sys.Fits
  | updateInPlace ix _ sys _ _ fields => ixFits ix ∧ sys.Fits ∧ fields.length < 2 ^ 32 ∧ ∀ f ∈ fields, fieldFits f
  | recDelete ix _ | listEndDelete ix _ | listStartDelete ix _ | pageReorganize ix | secDeleteMark ix _ _ => ixFits ix
  | listEndCopyCreated ix recs => ixFits ix ∧ (recs.flatMap Insert.enc).length < 2 ^ 32 ∧ ∀ i ∈ recs, i.Fits
  | zipPageReorganize ix _ | zipPageCompressNoData ix _ => ix.Fits
  | undoInsert u => u.Fits
  | undoInit type => type < 2 ^ 32
  | undoHdrReuse trx | undoHdrCreate trx => trx < 2 ^ 64
  | writeString _ data => data.length < 2 ^ 16
  | fileCreate name | fileDelete name | fileName name | fileCreate2 _ name => name.length < 2 ^ 16
  | fileRename old new | fileRename2 old new => old.length < 2 ^ 16 ∧ new.length < 2 ^ 16
  | zipWriteHeader _ data => data.length < 2 ^ 8
  | zipPageCompress _ _ data trailer => data.length < 2 ^ 16 ∧ trailer.length < 2 ^ 16
  | _ => True

def Item.Fits : Item → Prop
  | record _ space page r => space < 2 ^ 32 ∧ page < 2 ^ 32 ∧ r.Fits
  | _ => True

end Verif.Spec
