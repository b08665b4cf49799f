import Verif.Proofs.RedoUndo
import Verif.Props.RedoUndo
/-!
# C41: record framing
-/

namespace Verif.Props
open Verif Spec

/-- The records whose framing the code gets right.  The others are: renames (the second name is not skipped),
`MLOG_COMP_REC_SEC_DELETE_MARK` (the body is not skipped), updates in place with a NULL value (its length is skipped), dummy
records (taken for a record with a header); and undo records with numbers above 32 bits, or whose table in the dictionary does not
have the columns they name. -/
def InSync (cfg : RCfg) : Item → Prop
  | .record _ _ _ (.fileRename _ _) => False
  | .record _ _ _ (.fileRename2 _ _) => False
  | .record _ _ _ (.secDeleteMark (some _) _ _) => False
  | .record _ _ _ (.updateInPlace _ _ _ _ _ fields) => ∀ f ∈ fields, f.2 ≠ none
  | .record _ _ _ (.undoInsert u) => u.undoNo < 2 ^ 32 ∧ u.tableId < 2 ^ 32 ∧ Undo.Matches cfg u
  | .dummy => False
  | _ => True

theorem Eats.ign {d e : Bytes} {m : RM (Option Bytes)} {a : Option Bytes} {la : Nat} (h : Eats la d m e (pure a)) : Eats la d (Verif.ign m) e (pure .next) := by
  unfold Verif.ign
  exact Eats.congr (Eats.seq h (Eats.pure _)) (List.append_nil _)

theorem Eats.unit {d e : Bytes} {m : RM Unit} {la : Nat} (h : Eats la d m e (pure ())) : Eats la d (Verif.unit m) e (pure .next) := by
  unfold Verif.unit
  exact Eats.congr (Eats.seq h (Eats.pure _)) (List.append_nil _)

/-- How far the code reads behind the end of a record.  The second half of the 64-bit number of `mach_u64_write_compressed` is read
too far to the right, by the size of the first half, so a record that ends with such a number, or shortly after one, is read
correctly only if something follows. -/
def _root_.Verif.Spec.Rec.ahead : Rec → Nat
  | .clustDeleteMark _ _ _ sys _ => (compEnc (sys.trx / 2 ^ 32)).length - 2
  | .updateInPlace _ _ sys _ _ fields => (compEnc (sys.trx / 2 ^ 32)).length - (4 + (fields.flatMap fieldEnc).length)
  | .undoHdrReuse trx => (compEnc (trx / 2 ^ 32)).length
  | _ => 0

def _root_.Verif.Spec.Item.ahead : Item → Nat
  | .record _ _ _ r => r.ahead
  | _ => 0

theorem Rec.ahead_le (r : Rec) : r.ahead ≤ 5 := by
  unfold Rec.ahead
  split
  · have := compEnc_length_le; exact Nat.le_trans (Nat.sub_le _ _) (this _)
  · have := compEnc_length_le; exact Nat.le_trans (Nat.sub_le _ _) (this _)
  · exact compEnc_length_le _
  · omega

theorem Item.ahead_le (it : Item) : it.ahead ≤ 5 := by
  unfold Item.ahead
  split
  · exact Rec.ahead_le _
  · omega

theorem type_lt (r : Rec) : r.type < 62 ∧ r.type ≠ 31 ∧ r.type ≠ 56 ∧ validateLogHeader r.type = true := by
  unfold Rec.type
  split <;> decide

/-- Every record other than undo records: the switch skips exactly its body and prints nothing. -/
theorem dispatch_eats (cfg : RCfg) (s : Stream) (r : Rec) (hf : r.Fits) (hs : InSync cfg (.record b sp pg r)) (hu : ∀ u, r ≠ .undoInsert u) :
    Eats r.ahead s.data (dispatch cfg s r.type) r.body (pure .next) := by
  cases r with
  | bytes1 off val => exact Eats.ign (Eats.nbytes (ty := 1) (by decide) off hf)
  | bytes2 off val => exact Eats.ign (Eats.nbytes (ty := 2) (by decide) off hf)
  | bytes4 off val => exact Eats.ign (Eats.nbytes (ty := 4) (by decide) off hf)
  | bytes8 off val => exact Eats.ign (Eats.nbytes8 off hf)
  | recInsert ix off ins =>
    have h : ∀ ty, dispatch cfg s ty = (do
        match ← mlogRecInsert s.data ty with
        | some e => return Ctl.ret (some e)
        | none => return .next) → decide (ty = MLOG_COMP_REC_INSERT) = ix.isSome → Eats 0 s.data (dispatch cfg s ty)
          (Rec.recInsert ix off ins).body (pure .next) := by
      intro ty h1 h2
      rw [h1]
      exact Eats.congr (Eats.seq (Eats.recInsert hf.1 h2 off hf.2) (Eats.pure _)) (List.append_nil _)
    cases ix <;> exact h _ rfl rfl
  | clustDeleteMark ix flags val sys off =>
    have h := fun ty h2 => Eats.ign (Eats.clustDel (la := (compEnc (sys.trx / 2 ^ 32)).length - 2) (d := s.data) hf.1 (ty := ty) h2 flags val off hf.2 (by omega))
    cases ix <;> exact h _ rfl
  | secDeleteMark ix val off =>
    cases ix with
    | none => exact Eats.unit (Eats.secDel val off)
    | some ix => exact hs.elim
  | updateInPlace ix flags sys off info fields =>
    have h := fun ty h2 => Eats.ign (Eats.updateInPlace (la := (compEnc (sys.trx / 2 ^ 32)).length - (4 + (fields.flatMap fieldEnc).length)) (d := s.data) hf.1 (ty := ty) h2 flags off info hf.2.1 hf.2.2.1 hf.2.2.2 hs (by omega))
    cases ix <;> exact h _ rfl
  | recDelete ix off =>
    have h := fun b h2 => Eats.ign (Eats.delete (la := 0) (d := s.data) (ix := ix) hf (b := b) h2 off)
    cases ix <;> exact h _ rfl
  | listEndDelete ix off =>
    have h := fun b h2 => Eats.ign (Eats.delete (la := 0) (d := s.data) (ix := ix) hf (b := b) h2 off)
    cases ix <;> exact h _ rfl
  | listStartDelete ix off =>
    have h := fun b h2 => Eats.ign (Eats.delete (la := 0) (d := s.data) (ix := ix) hf (b := b) h2 off)
    cases ix <;> exact h _ rfl
  | listEndCopyCreated ix recs =>
    have h := fun ty h2 => Eats.ign (Eats.copyCreated (la := 0) (d := s.data) hf.1 (ty := ty) h2 hf.2.2 hf.2.1)
    cases ix <;> exact h _ rfl
  | pageReorganize ix =>
    have h := fun ty h2 h3 => Eats.ign (Eats.reorganize (la := 0) (d := s.data) (ix := ix) hf (ty := ty) h2 h3)
    cases ix with
    | none => exact h 18 rfl (by decide)
    | some ix => exact h 46 rfl (by decide)
  | zipPageReorganize ix level => exact Eats.ign (Eats.zipReorganize hf level)
  | pageCreate comp => cases comp <;> exact Eats.pure _
  | pageCreateRtree comp => cases comp <;> exact Eats.pure _
  | undoInsert u => exact absurd rfl (hu u)
  | undoEraseEnd => exact Eats.pure _
  | undoInit type => exact Eats.ign (Eats.undoInit hf)
  | undoHdrDiscard => exact Eats.pure _
  | undoHdrReuse trx => exact Eats.unit (Eats.hdrReuse hf (Nat.le_refl _))
  | undoHdrCreate trx => exact Eats.unit (Eats.hdrCreate hf)
  | recMinMark comp off => cases comp <;> exact Eats.unit (Eats.skip' (beEnc_length 2 off))
  | ibufBitmapInit => exact Eats.pure _
  | initFilePage => exact Eats.pure _
  | initFilePage2 => exact Eats.pure _
  | writeString off data => exact Eats.unit (Eats.writeString off hf)
  | fileCreate name => exact Eats.unit (Eats.fileOp (ty := 33) (by decide) hf)
  | fileDelete name => exact Eats.unit (Eats.fileOp (ty := 35) (by decide) hf)
  | fileName name => exact Eats.unit (Eats.fileOp (ty := 55) (by decide) hf)
  | fileCreate2 flags name => exact Eats.unit (Eats.fileCreate2 flags hf)
  | fileRename old new => exact hs.elim
  | fileRename2 old new => exact hs.elim
  | zipWriteNodePtr off zoff ptr => exact Eats.unit (Eats.zipNode off zoff ptr)
  | zipWriteBlobPtr off zoff ref =>
    exact Eats.unit (Eats.skip' (by simp only [Rec.body, List.length_append, beEnc_length]))
  | zipWriteHeader off data => exact Eats.unit (Eats.zipHeader off hf)
  | zipPageCompress prev next data trailer => exact Eats.unit (Eats.zipCompress prev next hf.1 hf.2)
  | zipPageCompressNoData ix level => exact Eats.ign (Eats.zipNoData hf level)
  | truncate lsn => exact Eats.unit (Eats.skip' (beEnc_length 8 lsn))
  | indexLoad id => exact Eats.unit (Eats.skip' (beEnc_length 8 id))

set_option maxRecDepth 10000 in
theorem typeByte (r : Rec) (single : Bool) : r.type + (if single then 128 else 0) < 256 ∧ r.type + (if single then 128 else 0) ≠ 31 ∧
    andNot64 (r.type + if single then 128 else 0) MLOG_SINGLE_REC_FLAG = r.type := by
  have h : ∀ n < 62, n ≠ 31 → ∀ b : Bool, n + (if b then 128 else 0) < 256 ∧ n + (if b then 128 else 0) ≠ 31 ∧
    andNot64 (n + if b then 128 else 0) MLOG_SINGLE_REC_FLAG = n := by decide
  exact h _ (type_lt r).1 (type_lt r).2.1 single

/-- the header of a record: type, space id and page number are read and the switch is entered -/
theorem redoStep_header (cfg : RCfg) (s : Stream) (single : Bool) (space page : Nat) (r : Rec) (hsp : space < 2 ^ 32) (hpg : page < 2 ^ 32)
    (pre suf : Bytes) (hd : s.data = pre ++ (beEnc 1 (r.type + if single then 128 else 0) ++ (compEnc space ++ compEnc page)) ++ suf) (out : Out) :
    redoStep cfg s ⟨pre.length, out⟩ = dispatch cfg s r.type
      ⟨(pre ++ (beEnc 1 (r.type + if single then 128 else 0) ++ (compEnc space ++ compEnc page))).length, out⟩ := by
  obtain ⟨t1, t2, t3⟩ := typeByte r single
  have hval := (type_lt r).2.2.2
  have h56 := (type_lt r).2.2.1
  unfold redoStep
  have r1 : read1 s.data pre.length = some (r.type + if single then 128 else 0) := by
    rw [read1_eq, hd, List.append_assoc, List.append_assoc, ← List.append_assoc]
    exact readW_beEnc pre _ t1
  rw [here_bind_some (s := ⟨pre.length, out⟩) r1, addPos_bind, getPos_bind]
  dsimp only
  rw [if_neg (show ¬ _ = MLOG_MULTI_REC_END from t2), t3, if_pos (show r.type ≠ MLOG_CHECKPOINT from h56)]
  have r2 : matchParseCompressed s.data (pre.length + 1) = some ⟨space, (compEnc space).length, none⟩ := by
    have := mpc_compEnc (pre ++ beEnc 1 (r.type + if single then 128 else 0)) (compEnc page ++ suf) hsp
    rw [List.length_append, beEnc_length] at this
    rw [hd]
    simp only [List.append_assoc] at this ⊢
    exact this
  rw [here_bind_some (s := ⟨pre.length + 1, out⟩) r2, addPos_bind]
  dsimp only
  have r3 : matchParseCompressed s.data (pre.length + 1 + (compEnc space).length) = some ⟨page, (compEnc page).length, none⟩ := by
    have := mpc_compEnc (pre ++ (beEnc 1 (r.type + if single then 128 else 0) ++ compEnc space)) suf hpg
    rw [List.length_append, List.length_append, beEnc_length, ← Nat.add_assoc] at this
    rw [hd]
    simp only [List.append_assoc] at this ⊢
    exact this
  rw [here_bind_some (s := ⟨pre.length + 1 + (compEnc space).length, out⟩) r3, addPos_bind]
  dsimp only
  rw [hval]
  simp only [Bool.not_true, Bool.false_eq_true, if_false, List.length_append, beEnc_length, Nat.add_assoc]

/-- **C41** for one record: the cursor is moved behind the record; only undo records print. -/
theorem C41_record_partial (cfg : RCfg) (s : Stream) (it : Item) (hf : it.Fits) (hs : InSync cfg it) (hl : s.data.length < 2 ^ 32)
    (pre suf : Bytes) (hd : s.data = pre ++ it.enc ++ suf) (ha : it.ahead ≤ suf.length) (out : Out) :
    ∃ out', redoStep cfg s ⟨pre.length, out⟩ = .ok .next ⟨(pre ++ it.enc).length, out'⟩ ∧
      ((∀ b sp pg u, it ≠ .record b sp pg (.undoInsert u)) → out' = out) := by
  cases it with
  | dummy => exact hs.elim
  | multiRecEnd =>
    refine ⟨out, ?_, fun _ => rfl⟩
    have r1 : read1 s.data pre.length = some 31 := by
      rw [read1_eq, hd]
      exact readW_beEnc pre _ (by decide)
    unfold redoStep
    rw [here_bind_some (s := ⟨pre.length, out⟩) r1, addPos_bind, getPos_bind, if_pos (show 31 = MLOG_MULTI_REC_END from rfl)]
    rw [List.length_append]
    rfl
  | checkpoint lsn =>
    refine ⟨out, ?_, fun _ => rfl⟩
    have r1 : read1 s.data pre.length = some 56 := by
      rw [read1_eq, hd, Item.enc, List.append_assoc, List.append_assoc, ← List.append_assoc]
      exact readW_beEnc pre _ (by decide)
    unfold redoStep
    rw [here_bind_some (s := ⟨pre.length, out⟩) r1, addPos_bind, getPos_bind, if_neg (show ¬ 56 = MLOG_MULTI_REC_END by decide)]
    have e : andNot64 56 MLOG_SINGLE_REC_FLAG = 56 := by decide
    dsimp only
    rw [e, if_neg (show ¬ 56 ≠ MLOG_CHECKPOINT by decide)]
    have : dispatch cfg s 56 = unit (addPos 8) := rfl
    rw [this, Item.enc, List.length_append, List.length_append, beEnc_length, beEnc_length, ← Nat.add_assoc]
    rfl
  | record single space page r =>
    obtain ⟨hsp, hpg, hr⟩ := hf
    have hd1 : s.data = pre ++ (beEnc 1 (r.type + if single then 128 else 0) ++ (compEnc space ++ compEnc page)) ++ (r.body ++ suf) := by
      rw [hd, Item.enc]; simp only [List.append_assoc]
    have hd2 : s.data = (pre ++ (beEnc 1 (r.type + if single then 128 else 0) ++ (compEnc space ++ compEnc page))) ++ r.body ++ suf := by
      rw [hd1]; simp only [List.append_assoc]
    have he : pre ++ (Item.record single space page r).enc =
        (pre ++ (beEnc 1 (r.type + if single then 128 else 0) ++ (compEnc space ++ compEnc page))) ++ r.body := by
      rw [Item.enc]; simp only [List.append_assoc]
    rw [redoStep_header cfg s single space page r hsp hpg pre _ hd1 out, he]
    generalize pre ++ (beEnc 1 (r.type + if single then 128 else 0) ++ (compEnc space ++ compEnc page)) = q at hd2
    by_cases hu : ∃ u, r = .undoInsert u
    · obtain ⟨u, rfl⟩ := hu
      obtain ⟨hn, ht, hm⟩ := hs
      obtain ⟨r, o, h⟩ := undo_ends cfg s u hr hn ht hm hl q suf hd2 out
      refine ⟨o, ?_, fun h => absurd rfl (h single space page u)⟩
      have : dispatch cfg s (Rec.undoInsert u).type = ign (mlogUndoInsert cfg s) := rfl
      rw [this]
      unfold ign
      rw [GoM.bind_ok h]
      rfl
    · refine ⟨out, (dispatch_eats cfg s r hr hs fun u h => hu ⟨u, h⟩).run hd2 ha out, fun _ => rfl⟩

/-- **C41**: for every sequence of such records the loop arrives, one iteration per record, at the start of what follows. -/
theorem C41_sequence_partial (cfg : RCfg) (s : Stream) (its : List Item) (hf : ∀ it ∈ its, it.Fits) (hs : ∀ it ∈ its, InSync cfg it)
    (hl : s.data.length < 2 ^ 32) (pre suf : Bytes) (hd : s.data = pre ++ its.flatMap Item.enc ++ suf) (h5 : 5 ≤ suf.length) (out : Out) :
    ∃ out', ∀ fuel, redoLoop cfg s (its.length + fuel) ⟨pre.length, out⟩ = redoLoop cfg s fuel ⟨(pre ++ its.flatMap Item.enc).length, out'⟩ := by
  induction its generalizing pre out with
  | nil =>
    refine ⟨out, fun fuel => ?_⟩
    rw [List.length_nil, Nat.zero_add, List.flatMap_nil, List.append_nil]
  | cons it its ih =>
    rw [List.flatMap_cons] at hd
    have hd1 : s.data = pre ++ it.enc ++ (its.flatMap Item.enc ++ suf) := by rw [hd]; simp only [List.append_assoc]
    obtain ⟨o, h, _⟩ := C41_record_partial cfg s it (hf it List.mem_cons_self) (hs it List.mem_cons_self) hl pre _ hd1
      (by have := Item.ahead_le it; rw [List.length_append]; omega) out
    obtain ⟨o', h'⟩ := ih (fun i hi => hf i (List.mem_cons_of_mem _ hi)) (fun i hi => hs i (List.mem_cons_of_mem _ hi)) (pre ++ it.enc)
      (by rw [hd1]; simp only [List.append_assoc]) o
    refine ⟨o', fun fuel => ?_⟩
    have e : (it :: its).length + fuel = its.length + fuel + 1 := by rw [List.length_cons]; omega
    have e2 : pre ++ (it :: its).flatMap Item.enc = pre ++ it.enc ++ its.flatMap Item.enc := by
      rw [List.flatMap_cons]; simp only [List.append_assoc]
    rw [e, e2, ← h' fuel, redoLoop, getPos_bind, if_neg, GoM.bind_ok h]
    rw [hd1]
    simp only [List.length_append]
    omega

/-- non-vacuity: an insert, the end of its mini-transaction, a checkpoint and an undo record of an unknown table -/
def someItems : List Item :=
  [.record false 5 3 (.recInsert (some ⟨1, [4, 0x8007]⟩) 120 ⟨[1, 2, 3], some (0, 6, 300)⟩), .multiRecEnd, .checkpoint (2 ^ 40),
   .record true 5 70000 (.undoInsert ⟨12, 1, 3, 77, 0, 2 ^ 33, 2 ^ 50, [[128, 0, 0, 1]], [(3, none), (4, some [1, 2])], [0, 2]⟩),
   .record true 5 3 (.updateInPlace none 0 ⟨2, 7, 8⟩ 99 0 [(3, some [65])])]

example (cfg : RCfg) (h : cfg.tables = []) (out : Out) : ∃ out', ∀ fuel,
    redoLoop cfg ⟨someItems.flatMap Item.enc ++ [31, 31, 31, 31, 31], 0⟩ (5 + fuel) ⟨0, out⟩ =
      redoLoop cfg ⟨someItems.flatMap Item.enc ++ [31, 31, 31, 31, 31], 0⟩ fuel ⟨(someItems.flatMap Item.enc).length, out'⟩ := by
  refine C41_sequence_partial cfg ⟨someItems.flatMap Item.enc ++ [31, 31, 31, 31, 31], 0⟩ someItems ?_ ?_ (by decide) [] [31, 31, 31, 31, 31] rfl
    (by decide) out
  · intro it hit
    simp only [someItems, List.mem_cons, List.not_mem_nil, or_false] at hit
    rcases hit with rfl | rfl | rfl | rfl | rfl
    · refine ⟨by decide, by decide, show _ < _ by decide, by decide, ?_⟩
      intro x hx
      cases hx
      decide
    · trivial
    · trivial
    · refine ⟨by decide, by decide, by decide, by decide, by decide, by decide, by decide, by decide, ?_, by decide⟩
      intro f hf
      simp only [List.mem_cons, List.not_mem_nil, or_false] at hf
      rcases hf with rfl | rfl
      · exact ⟨by decide, fun v hv => by cases hv⟩
      · exact ⟨by decide, fun v hv => by cases hv; decide⟩
    · refine ⟨by decide, by decide, trivial, by constructor <;> decide, by decide, ?_⟩
      intro f hf
      simp only [List.mem_cons, List.not_mem_nil, or_false] at hf
      subst hf
      exact ⟨by decide, fun v hv => by cases hv; decide⟩
  · intro it hit
    simp only [someItems, List.mem_cons, List.not_mem_nil, or_false] at hit
    rcases hit with rfl | rfl | rfl | rfl | rfl
    · trivial
    · trivial
    · trivial
    · refine ⟨by decide, by decide, ?_⟩
      intro table ht
      rw [h] at ht
      cases ht
    · intro f hf
      simp only [List.mem_cons, List.not_mem_nil, or_false] at hf
      subst hf
      exact nofun

/-! ## The other records -/

/-- **C41**, as stated, for one record -/
def C41_statement : Prop := ∀ cfg (s : Stream) (it : Item) (pre suf : Bytes) (out : Out), it.Fits → s.data = pre ++ it.enc ++ suf →
  5 ≤ suf.length → ∃ out', redoStep cfg s ⟨pre.length, out⟩ = .ok .next ⟨(pre ++ it.enc).length, out'⟩

/-- what precedes the body -/
def headerEnc (single : Bool) (space page : Nat) (r : Rec) : Bytes :=
  beEnc 1 (r.type + if single then 128 else 0) ++ (compEnc space ++ compEnc page)

theorem record_enc (single : Bool) (space page : Nat) (r : Rec) : (Item.record single space page r).enc = headerEnc single space page r ++ r.body := by
  unfold Item.enc headerEnc
  simp only [List.append_assoc]

theorem step_of_eats (cfg : RCfg) (s : Stream) (single : Bool) (space page : Nat) (r : Rec) (hsp : space < 2 ^ 32) (hpg : page < 2 ^ 32)
    (e : Bytes) {la : Nat} (he : Eats la s.data (dispatch cfg s r.type) e (pure .next)) (pre suf : Bytes)
    (hd : s.data = pre ++ (headerEnc single space page r ++ e) ++ suf) (h5 : la ≤ suf.length) (out : Out) :
    redoStep cfg s ⟨pre.length, out⟩ = .ok .next ⟨(pre ++ (headerEnc single space page r ++ e)).length, out⟩ := by
  rw [redoStep_header cfg s single space page r hsp hpg pre (e ++ suf) (by rw [hd, headerEnc]; simp only [List.append_assoc]) out]
  have := he.run (pre := pre ++ headerEnc single space page r) (suf := suf) (by rw [hd]; simp only [List.append_assoc]) h5 out
  rw [List.append_assoc] at this
  exact this

/-- **C41 fails for renames**: the cursor stops before the second name, which is then taken for a record. -/
theorem C41_rename (cfg : RCfg) (s : Stream) (single : Bool) (space page : Nat) (old new : Bytes) (two : Bool) (hsp : space < 2 ^ 32)
    (hpg : page < 2 ^ 32) (ho : old.length < 2 ^ 16) (pre suf : Bytes)
    (r : Rec) (hr : r = if two then .fileRename2 old new else .fileRename old new)
    (hd : s.data = pre ++ (Item.record single space page r).enc ++ suf) (h5 : 5 ≤ suf.length) (out : Out) :
    redoStep cfg s ⟨pre.length, out⟩ = .ok .next ⟨(pre ++ (headerEnc single space page r ++ nameEnc old)).length, out⟩ := by
  have hb : r.body = nameEnc old ++ nameEnc new := by subst hr; cases two <;> rfl
  have he : Eats 0 s.data (dispatch cfg s r.type) (nameEnc old) (pure .next) := by
    subst hr
    cases two
    · exact Eats.unit (Eats.fileOp (ty := 34) (by decide) ho)
    · exact Eats.unit (Eats.fileOp (ty := 54) (by decide) ho)
  refine step_of_eats cfg s single space page r hsp hpg _ he pre (nameEnc new ++ suf) ?_ (by rw [List.length_append]; omega) out
  rw [hd, record_enc, hb]
  simp only [List.append_assoc]

/-- **C41 fails for `MLOG_COMP_REC_SEC_DELETE_MARK`**: the cursor stops before the last three bytes. -/
theorem C41_comp_sec_delete_mark (cfg : RCfg) (s : Stream) (single : Bool) (space page : Nat) (ix : IndexInfo) (val off : Nat) (hsp : space < 2 ^ 32)
    (hpg : page < 2 ^ 32) (hi : ix.Fits) (pre suf : Bytes)
    (hd : s.data = pre ++ (Item.record single space page (.secDeleteMark (some ix) val off)).enc ++ suf) (h5 : 5 ≤ suf.length) (out : Out) :
    redoStep cfg s ⟨pre.length, out⟩ = .ok .next ⟨(pre ++ (Item.record single space page (.secDeleteMark (some ix) val off)).enc).length - 3, out⟩ := by
  have he : Eats 0 s.data (dispatch cfg s (Rec.secDeleteMark (some ix) val off).type) ix.enc (pure .next) :=
    Eats.ign (Eats.index (some ix) hi true rfl)
  have := step_of_eats cfg s single space page (.secDeleteMark (some ix) val off) hsp hpg _ he pre (beEnc 1 val ++ beEnc 2 off ++ suf) ?_
    (by simp only [List.length_append]; omega) out
  · rw [this, record_enc]
    congr 2
    simp only [Rec.body, ixEnc, List.length_append, beEnc_length]
    omega
  · rw [hd, record_enc]
    simp only [Rec.body, ixEnc, List.append_assoc]

/-- **C41 fails for dummy records**: the bytes that follow are taken for a space id and a page number. -/
theorem C41_dummy (cfg : RCfg) (s : Stream) (pre suf : Bytes) (a b : Nat) (ha : a < 2 ^ 32) (hb : b < 2 ^ 32)
    (hd : s.data = pre ++ Item.dummy.enc ++ (compEnc a ++ (compEnc b ++ suf))) (out : Out) :
    redoStep cfg s ⟨pre.length, out⟩ = .ok .next ⟨(pre ++ Item.dummy.enc ++ (compEnc a ++ compEnc b)).length, out⟩ := by
  have hd1 : s.data = pre ++ (beEnc 1 32 ++ (compEnc a ++ compEnc b)) ++ suf := by
    rw [hd, Item.enc]; simp only [List.append_assoc]
  have r1 : read1 s.data pre.length = some 32 := by
    rw [read1_eq, hd1, List.append_assoc, List.append_assoc, ← List.append_assoc]
    exact readW_beEnc pre _ (by decide)
  unfold redoStep
  rw [here_bind_some (s := ⟨pre.length, out⟩) r1, addPos_bind, getPos_bind, if_neg (show ¬ 32 = MLOG_MULTI_REC_END by decide)]
  have e : andNot64 32 MLOG_SINGLE_REC_FLAG = 32 := by decide
  dsimp only
  rw [e, if_pos (show 32 ≠ MLOG_CHECKPOINT by decide)]
  have r2 : matchParseCompressed s.data (pre.length + 1) = some ⟨a, (compEnc a).length, none⟩ := by
    have := mpc_compEnc (pre ++ beEnc 1 32) (compEnc b ++ suf) ha
    rw [List.length_append, beEnc_length] at this
    rw [hd1]
    simp only [List.append_assoc] at this ⊢
    exact this
  rw [here_bind_some (s := ⟨pre.length + 1, out⟩) r2, addPos_bind]
  dsimp only
  have r3 : matchParseCompressed s.data (pre.length + 1 + (compEnc a).length) = some ⟨b, (compEnc b).length, none⟩ := by
    have := mpc_compEnc (pre ++ (beEnc 1 32 ++ compEnc a)) suf hb
    rw [List.length_append, List.length_append, beEnc_length, ← Nat.add_assoc] at this
    rw [hd1]
    simp only [List.append_assoc] at this ⊢
    exact this
  rw [here_bind_some (s := ⟨pre.length + 1 + (compEnc a).length, out⟩) r3, addPos_bind]
  dsimp only
  have hv : validateLogHeader 32 = true := by decide
  rw [hv]
  simp only [Bool.not_true, Bool.false_eq_true, if_false, Item.enc, List.length_append, beEnc_length, Nat.add_assoc]
  rfl

theorem mpc_beyond {d : Bytes} {p : Nat} (h : d.length ≤ p) : matchParseCompressed d p = none := by
  unfold matchParseCompressed
  rw [read1_eq, readW, if_neg (by omega)]
  rfl

/-- the fields after a NULL value -/
theorem fieldsLoop_null (d : Bytes) (hl : d.length < SQL_NULL) (fields : List (Nat × Option Bytes)) (hf : ∀ f ∈ fields, fieldFits f)
    (hn : ∃ f ∈ fields, f.2 = none) (pre suf : Bytes) (hd : d = pre ++ fields.flatMap fieldEnc ++ suf) (out : Out) :
    ∃ p, d.length < p ∧ (updFieldsLoop d fields.length ⟨pre.length, out⟩ = .ok none ⟨p, out⟩ ∨
      updFieldsLoop d fields.length ⟨pre.length, out⟩ = .panic ⟨p, out⟩) := by
  induction fields generalizing pre with
  | nil => obtain ⟨f, h, _⟩ := hn; cases h
  | cons f fs ih =>
    obtain ⟨k, v⟩ := f
    obtain ⟨h1, h2⟩ := hf _ List.mem_cons_self
    dsimp only at h1 h2
    have hd1 : d = pre ++ fieldEnc (k, v) ++ (fs.flatMap fieldEnc ++ suf) := by
      rw [hd, List.flatMap_cons]; simp only [List.append_assoc]
    have r1 : matchParseCompressed d pre.length = some ⟨k, (compEnc k).length, none⟩ := by
      rw [hd1, fieldEnc, List.append_assoc, List.append_assoc, ← List.append_assoc]
      exact mpc_compEnc pre _ h1
    rw [List.length_cons, updFieldsLoop, here_bind_some (s := ⟨pre.length, out⟩) r1]
    dsimp only
    rw [addPos_bind]
    cases v with
    | none =>
      have r2 : matchParseCompressed d (pre.length + (compEnc k).length) = some ⟨SQL_NULL, (compEnc SQL_NULL).length, none⟩ := by
        have := mpc_compEnc (pre ++ compEnc k) (fs.flatMap fieldEnc ++ suf) (n := SQL_NULL) (by decide)
        rw [List.length_append] at this
        rw [hd1, fieldEnc, valueEnc]
        simp only [List.append_assoc] at this ⊢
        exact this
      rw [here_bind_some (s := ⟨pre.length + (compEnc k).length, out⟩) r2]
      dsimp only
      rw [addPos_bind, addPos_bind]
      dsimp only
      have hk : 0 < (compEnc k).length := List.length_pos_iff.mpr (compEnc_ne_nil k)
      refine ⟨pre.length + (compEnc k).length + (compEnc SQL_NULL).length + SQL_NULL, by omega, ?_⟩
      cases fs with
      | nil => exact Or.inl rfl
      | cons g gs =>
        right
        rw [List.length_cons, updFieldsLoop, here_bind_none (mpc_beyond (by dsimp only; omega))]
    | some v =>
      have h3 : v.length < 2 ^ 32 := by
        have : v.length < 2 ^ 32 - 1 := h2 v rfl
        omega
      have r2 : matchParseCompressed d (pre.length + (compEnc k).length) = some ⟨v.length, (compEnc v.length).length, none⟩ := by
        have := mpc_compEnc (pre ++ compEnc k) (v ++ (fs.flatMap fieldEnc ++ suf)) h3
        rw [List.length_append] at this
        rw [hd1, fieldEnc, valueEnc]
        simp only [List.append_assoc] at this ⊢
        exact this
      rw [here_bind_some (s := ⟨pre.length + (compEnc k).length, out⟩) r2]
      dsimp only
      rw [addPos_bind, addPos_bind]
      dsimp only
      have := ih (fun f h => hf f (List.mem_cons_of_mem _ h)) ?_ (pre ++ fieldEnc (k, some v)) (by rw [hd1]; simp only [List.append_assoc])
      · simp only [fieldEnc, valueEnc, List.length_append] at this
        simp only [Nat.add_assoc] at this ⊢
        exact this
      · obtain ⟨f, hf, hf0⟩ := hn
        rcases List.mem_cons.mp hf with rfl | hf
        · cases hf0
        · exact ⟨f, hf, hf0⟩

theorem read_at {f : Bytes → Nat → Option Nat} {w : Nat} (hf : ∀ d p, f d p = readW w d p) {d pre e suf : Bytes} (he : e.length = w)
    (hd : d = pre ++ (e ++ suf)) : f d pre.length = some (beVal e) := by
  rw [hf, ← he, hd, ← List.append_assoc]
  exact readW_append pre e suf

theorem mpc_at {d pre suf : Bytes} {n : Nat} (hn : n < 2 ^ 32) (hd : d = pre ++ (compEnc n ++ suf)) :
    matchParseCompressed d pre.length = some ⟨n, (compEnc n).length, none⟩ := by
  rw [hd, ← List.append_assoc]
  exact mpc_compEnc pre suf hn

/-- everything before the fields of an update in place -/
theorem updInPlace_head (d : Bytes) {ix : Option IndexInfo} (hi : ixFits ix) {ty : Nat} (ht : decide (ty = MLOG_COMP_REC_UPDATE_IN_PLACE) = ix.isSome)
    (flags off info : Nat) {v : SysVals} (hv : v.Fits) {fields : List (Nat × Option Bytes)} (hl : fields.length < 2 ^ 32) (pre suf : Bytes)
    (hd : d = pre ++ (ixEnc ix ++ (beEnc 1 flags ++ (v.enc ++ (beEnc 2 off ++ (beEnc 1 info ++ (compEnc fields.length ++ suf)))))))
    (h5 : 5 ≤ suf.length) (out : Out) : ∃ q : Bytes, d = q ++ suf ∧
      updInPlaceBody d ty ⟨pre.length, out⟩ = updFieldsLoop d fields.length ⟨q.length, out⟩ := by
  unfold updInPlaceBody
  have i1 := (Eats.index (la := 0) (d := d) ix hi _ ht).run (pre := pre)
    (suf := beEnc 1 flags ++ (v.enc ++ (beEnc 2 off ++ (beEnc 1 info ++ (compEnc fields.length ++ suf)))))
    (by rw [hd]; simp only [List.append_assoc]) (Nat.zero_le _) out
  rw [GoM.bind_ok i1]
  rw [← List.append_assoc] at hd
  generalize pre ++ ixEnc ix = p1 at hd
  dsimp only
  rw [here_bind_some (s := ⟨p1.length, out⟩) (read_at read1_eq (beEnc_length 1 flags) hd), addPos_bind]
  rw [← List.append_assoc, SysVals.enc] at hd
  have e1 : p1.length + 1 = (p1 ++ beEnc 1 flags).length := by rw [List.length_append, beEnc_length]
  dsimp only
  rw [e1]
  generalize p1 ++ beEnc 1 flags = p2 at hd
  simp only [List.append_assoc] at hd
  rw [here_bind_some (s := ⟨p2.length, out⟩) (mpc_at hv.1 hd)]
  rw [← List.append_assoc] at hd
  dsimp only
  rw [addPos_bind, getPos_bind]
  dsimp only
  rw [← List.length_append]
  generalize p2 ++ compEnc v.pos = p3 at hd
  rw [if_neg (by rw [hd]; simp only [List.length_append, beEnc_length]; omega)]
  rw [here_bind_some (s := ⟨p3.length, out⟩) (read_at read7_eq (beEnc_length 7 v.roll) hd), addPos_bind]
  rw [← List.append_assoc] at hd
  have e2 : p3.length + 7 = (p3 ++ beEnc 7 v.roll).length := by rw [List.length_append, beEnc_length]
  dsimp only
  rw [e2]
  generalize p3 ++ beEnc 7 v.roll = p4 at hd
  obtain ⟨x, hx⟩ := ull_run (d := d) (pre := p4) (suf := beEnc 2 off ++ (beEnc 1 info ++ (compEnc fields.length ++ suf))) hv.2
    (by rw [hd]; simp only [List.append_assoc]) (by have := compEnc_length_le (v.trx / 2 ^ 32); simp only [List.length_append]; omega) out
  rw [GoM.bind_ok hx]
  rw [← List.append_assoc] at hd
  rw [← List.length_append]
  generalize p4 ++ ullCompEnc v.trx = p5 at hd
  rw [here_bind_some (s := ⟨p5.length, out⟩) (read_at read2_eq (beEnc_length 2 off) hd), addPos_bind]
  rw [← List.append_assoc] at hd
  have e3 : p5.length + 2 = (p5 ++ beEnc 2 off).length := by rw [List.length_append, beEnc_length]
  dsimp only
  rw [e3]
  generalize p5 ++ beEnc 2 off = p6 at hd
  rw [here_bind_some (s := ⟨p6.length, out⟩) (read_at read1_eq (beEnc_length 1 info) hd), addPos_bind]
  rw [← List.append_assoc] at hd
  have e4 : p6.length + 1 = (p6 ++ beEnc 1 info).length := by rw [List.length_append, beEnc_length]
  dsimp only
  rw [e4]
  generalize p6 ++ beEnc 1 info = p7 at hd
  rw [here_bind_some (s := ⟨p7.length, out⟩) (mpc_at hl hd)]
  rw [← List.append_assoc] at hd
  dsimp only
  rw [addPos_bind, ← List.length_append]
  exact ⟨_, hd, rfl⟩

/-- **C41 fails for updates in place that set a column to NULL**: the cursor is moved beyond the end of the stream, so the rest of the
log is silently ignored. -/
theorem C41_null_update (cfg : RCfg) (s : Stream) (single : Bool) (space page : Nat) (ix : Option IndexInfo) (flags : Nat) (sys : SysVals) (off info : Nat)
    (fields : List (Nat × Option Bytes)) (hf : (Item.record single space page (.updateInPlace ix flags sys off info fields)).Fits)
    (hn : ∃ f ∈ fields, f.2 = none) (hl : s.data.length < SQL_NULL) (pre suf : Bytes)
    (hd : s.data = pre ++ (Item.record single space page (.updateInPlace ix flags sys off info fields)).enc ++ suf) (h5 : 5 ≤ suf.length)
    (out : Out) (fuel : Nat) : ∃ st, redoLoop cfg s (fuel + 2) ⟨pre.length, out⟩ = .ok none st ∧ st.out = out := by
  obtain ⟨hsp, hpg, hi, hv, hfl, hff⟩ := hf
  rw [record_enc] at hd
  have hstep : ∃ p, s.data.length < p ∧ redoStep cfg s ⟨pre.length, out⟩ = .ok .next ⟨p, out⟩ := by
    rw [redoStep_header cfg s single space page (.updateInPlace ix flags sys off info fields) hsp hpg pre
      ((Rec.updateInPlace ix flags sys off info fields).body ++ suf) (by rw [hd, headerEnc]; simp only [List.append_assoc]) out]
    have hdisp : dispatch cfg s (Rec.updateInPlace ix flags sys off info fields).type =
        ign (mlogRecUpdateInPlace s.data (Rec.updateInPlace ix flags sys off info fields).type) := by cases ix <;> rfl
    have hty : decide ((Rec.updateInPlace ix flags sys off info fields).type = MLOG_COMP_REC_UPDATE_IN_PLACE) = ix.isSome := by cases ix <;> rfl
    rw [hdisp]
    have hd' : s.data = (pre ++ headerEnc single space page (.updateInPlace ix flags sys off info fields)) ++
        ((Rec.updateInPlace ix flags sys off info fields).body ++ suf) := by rw [hd]; simp only [List.append_assoc]
    unfold headerEnc at hd'
    generalize pre ++ (beEnc 1 ((Rec.updateInPlace ix flags sys off info fields).type + if single then 128 else 0) ++ (compEnc space ++ compEnc page)) = q at hd'
    unfold Rec.body updateEnc at hd'
    simp only [List.append_assoc] at hd'
    obtain ⟨q', hq', hrun⟩ := updInPlace_head s.data hi hty flags off info hv hfl q (fields.flatMap fieldEnc ++ suf) hd'
      (by rw [List.length_append]; omega) out
    obtain ⟨p, hp, hloop⟩ := fieldsLoop_null s.data hl fields hff hn q' suf (by rw [hq', List.append_assoc]) out
    refine ⟨p, hp, ?_⟩
    unfold ign mlogRecUpdateInPlace
    rw [GoM.bind_run]
    unfold GoM.recover
    rw [hrun]
    rcases hloop with h | h <;> rw [h] <;> rfl
  obtain ⟨p, hp, hst⟩ := hstep
  refine ⟨⟨p, out⟩, ?_, rfl⟩
  rw [redoLoop, getPos_bind, if_neg, GoM.bind_ok hst]
  · dsimp only
    rw [redoLoop, getPos_bind, if_pos (by dsimp only; omega)]
    rfl
  · rw [hd]
    simp only [List.length_append]
    omega

/-- the 64-bit number at the end of the stream -/
theorem ull_end {d pre suf : Bytes} {n : Nat} (hn : n < 2 ^ 64) (hd : d = pre ++ ullCompEnc n ++ suf)
    (hs : suf.length < (compEnc (n / 2 ^ 32)).length) (out : Out) : ∃ t, ullReadCompressed d ⟨pre.length, out⟩ = .panic t := by
  rcases ull_or hn hd out with ⟨v, hv⟩ | h
  case inr => exact h
  exfalso
  have hh : n / 2 ^ 32 < 2 ^ 32 := by omega
  have hr : matchParseCompressed d pre.length = some ⟨n / 2 ^ 32, (compEnc (n / 2 ^ 32)).length, none⟩ := by
    rw [hd, ullCompEnc, List.append_assoc, List.append_assoc, ← List.append_assoc]
    exact mpc_compEnc pre _ hh
  have hl : d.length = pre.length + ((compEnc (n / 2 ^ 32)).length + 4) + suf.length := by
    rw [hd, ullCompEnc]
    simp only [List.length_append, beEnc_length]
  have hsz := matchGetCompressedSize_eq (n / 2 ^ 32)
  unfold ullReadCompressed at hv
  rw [GoM.zoom_run] at hv
  unfold matchUllReadComPressed at hv
  dsimp only at hv
  rw [hr] at hv
  dsimp only at hv
  have h1 : (do let s ← sliceFrom d (pre.length + (compEnc (n / 2 ^ 32)).length); let s ← sliceFrom s (matchGetCompressedSize (n / 2 ^ 32)); matchReadFrom4 s :
      Option Nat) = none := by
    rw [sliceFrom, if_pos (by omega)]
    dsimp only [Option.bind_eq_bind, Option.bind]
    rw [sliceFrom, hsz]
    by_cases hc : (compEnc (n / 2 ^ 32)).length ≤ (d.drop (pre.length + (compEnc (n / 2 ^ 32)).length)).length
    · rw [if_pos hc]
      dsimp only [Option.bind]
      rw [matchReadFrom4_eq, if_neg (by rw [List.length_drop, List.length_drop]; omega)]
    · rw [if_neg hc]
  rw [h1] at hv
  cases hv

/-- **C41 fails at the end of a log**: `MLOG_UNDO_HDR_REUSE` needs the bytes that `Rec.ahead` counts; with fewer the parser panics. -/
theorem C41_log_end (cfg : RCfg) (s : Stream) (single : Bool) (space page trx : Nat) (hsp : space < 2 ^ 32) (hpg : page < 2 ^ 32) (ht : trx < 2 ^ 64)
    (pre suf : Bytes) (hd : s.data = pre ++ (Item.record single space page (.undoHdrReuse trx)).enc ++ suf)
    (hs : suf.length < (Rec.undoHdrReuse trx).ahead) (out : Out) : ∃ t, redoStep cfg s ⟨pre.length, out⟩ = .panic t := by
  rw [record_enc] at hd
  rw [redoStep_header cfg s single space page (.undoHdrReuse trx) hsp hpg pre ((Rec.undoHdrReuse trx).body ++ suf)
    (by rw [hd, headerEnc]; simp only [List.append_assoc]) out]
  obtain ⟨t, h⟩ := ull_end (d := s.data) (pre := pre ++ headerEnc single space page (.undoHdrReuse trx)) (suf := suf) ht
    (by rw [hd]; simp only [List.append_assoc]; rfl) hs out
  refine ⟨t, ?_⟩
  have : dispatch cfg s (Rec.undoHdrReuse trx).type = Verif.unit (mlogUndoHdrReuse s.data) := rfl
  rw [this]
  unfold Verif.unit mlogUndoHdrReuse
  rw [headerEnc] at h
  exact GoM.bind_panic (GoM.bind_panic h)

/-- non-vacuity: transaction 5, at the end of the log -/
example (cfg : RCfg) (out : Out) : ∃ t, redoStep cfg ⟨(Item.record true 0 300 (.undoHdrReuse 5)).enc, 0⟩ ⟨0, out⟩ = .panic t :=
  C41_log_end cfg ⟨(Item.record true 0 300 (.undoHdrReuse 5)).enc, 0⟩ true 0 300 5 (by decide) (by decide) (by decide) [] []
    (by rw [List.nil_append, List.append_nil]) (by decide) out

/-- **C41 as stated is false**: a rename followed by anything leaves the cursor in the middle of the record. -/
theorem C41_false : ¬ C41_statement := by
  intro h
  let r : Rec := .fileRename [97, 0] [98, 0]
  obtain ⟨out', h'⟩ := h ⟨⟨fun _ => 0, ⟨fun _ => [], fun _ => []⟩⟩, [], [], []⟩ ⟨(Item.record false 5 0 r).enc ++ [31, 31, 31, 31, 31], 0⟩ (.record false 5 0 r) [] [31, 31, 31, 31, 31] []
    ⟨by decide, by decide, by decide, by decide⟩ rfl (by decide)
  rw [C41_rename _ _ false 5 0 [97, 0] [98, 0] false (by decide) (by decide) (by decide) [] [31, 31, 31, 31, 31] r rfl rfl (by decide) []] at h'
  injection h' with _ h'
  injection h' with h' _
  revert h'
  decide

end Verif.Props
