import Verif.Props.WalkWitness
import Verif.Props.Dates
import Verif.Props.Exact
/-!
# C95: every value is decoded from the bytes of its own column
-/

set_option linter.unusedSimpArgs false

namespace Verif.Props
open Verif Spec

/-- The storage sizes that the server uses for the MySQL type `mtype` of a column. -/
def RealSize (mtype : Nat) : Kind → Prop
  | .int w => (w = 1 ∨ w = 2 ∨ w = 3 ∨ w = 4 ∨ w = 8) ∧ (mtype = MYSQL_TYPE_DATE → w = 3)
  | .fixBinary n => (mtype = MYSQL_TYPE_TIME → 3 ≤ n) ∧ (mtype = MYSQL_TYPE_TIMESTAMP → 4 ≤ n) ∧
      (mtype = MYSQL_TYPE_DATETIME → 5 ≤ n ∧ n ≤ 8) ∧ (mtype = MYSQL_TYPE_BIT → 1 ≤ n ∧ n ≤ 8)
  | _ => True

/-- The column types whose decoder looks at more bytes than the column has: DATETIME in 5 to 7 bytes; and BIT in 5 to 7 bytes. -/
def LooksBeyond (mtype : Nat) : Kind → Prop
  | .fixBinary n => (mtype = MYSQL_TYPE_DATETIME ∨ mtype = MYSQL_TYPE_BIT) ∧ 5 ≤ n ∧ n ≤ 7
  | _ => False

instance (m : Nat) (k : Kind) : Decidable (RealSize m k) := by
  cases k <;> (dsimp only [RealSize]; infer_instance)
instance (m : Nat) (k : Kind) : Decidable (LooksBeyond m k) := by
  cases k <;> (dsimp only [LooksBeyond]; infer_instance)

/-- The value of a column, decoded from the bytes of the column alone. -/
def ownValue (env : Env) (c : Column) (x : Cell) : Val :=
  match decodeCell env c x [] [] with
  | .ok c' _ => c'.value
  | _ => .nil

/-! ## One column -/

theorem read1_own {v : Bytes} (rest : Bytes) (h : 1 ≤ v.length) : matchReadFrom1 (v ++ rest) = some (beVal (v.take 1)) := by
  rw [matchReadFrom1_eq, if_pos (by rw [List.length_append]; omega), List.take_append_of_le_length h]
theorem read2_own {v : Bytes} (rest : Bytes) (h : 2 ≤ v.length) : matchReadFrom2 (v ++ rest) = some (beVal (v.take 2)) := by
  rw [matchReadFrom2_eq, if_pos (by rw [List.length_append]; omega), List.take_append_of_le_length h]
theorem read3_own {v : Bytes} (rest : Bytes) (h : 3 ≤ v.length) : matchReadFrom3 (v ++ rest) = some (beVal (v.take 3)) := by
  rw [matchReadFrom3_eq, if_pos (by rw [List.length_append]; omega), List.take_append_of_le_length h]
theorem read4_own {v : Bytes} (rest : Bytes) (h : 4 ≤ v.length) : matchReadFrom4 (v ++ rest) = some (beVal (v.take 4)) := by
  rw [matchReadFrom4_eq, if_pos (by rw [List.length_append]; omega), List.take_append_of_le_length h]
theorem read8_own {v : Bytes} (rest : Bytes) (h : 8 ≤ v.length) : matchReadFrom8 (v ++ rest) = some (beVal (v.take 8)) := by
  rw [matchReadFrom8_eq, if_pos (by rw [List.length_append]; omega), List.take_append_of_le_length h]
theorem slice_own (v rest : Bytes) (n : Nat) (h : n ≤ v.length) : sliceTo (v ++ rest) n = some (v.take n) := by
  unfold sliceTo
  rw [if_pos (by rw [List.length_append]; omega), List.take_append_of_le_length h]

/-- The decoder ends normally and gives the same value whatever follows the column. -/
def OwnBytes (env : Env) (t m : Nat) (v : Bytes) (fx : Nat) (u b : Bool) : Prop :=
  ∃ w f l, ∀ rest out, parseData env t m (v ++ rest) v.length fx u b out = .ok (w, f) (out ++ l)

theorem own_of_opt {α : Type} {env : Env} {t m : Nat} {v : Bytes} {fx : Nat} {u b : Bool} (g : α → Val) (f : Bool) (o : Bytes → Option α)
    (h : ∀ rest out, parseData env t m (v ++ rest) v.length fx u b out = (GoM.lift (o rest) >>= fun a => pure (g a, f) : GoM Out (Val × Bool)) out)
    (a : α) (ha : ∀ rest, o rest = some a) : OwnBytes env t m v fx u b :=
  ⟨g a, f, [], fun rest out => by rw [h, ha, List.append_nil]; rfl⟩

theorem uint_own (v : Bytes) (fx : Nat) (h : fx = v.length) (h5 : ¬ (5 ≤ fx ∧ fx ≤ 7)) : ∃ a, getUintValue fx v = some a := by
  have e1 := @read1_own v []
  have e2 := @read2_own v []
  have e3 := @read3_own v []
  have e4 := @read4_own v []
  have e8 := @read8_own v []
  rw [List.append_nil] at e1 e2 e3 e4 e8
  by_cases h1 : fx = 1
  · subst h1; exact ⟨_, e1 (by omega)⟩
  by_cases h1 : fx = 2
  · subst h1; exact ⟨_, e2 (by omega)⟩
  by_cases h1 : fx = 3
  · subst h1; exact ⟨_, by simp only [getUintValue]; rw [e3 (by omega)]; rfl⟩
  by_cases h1 : fx = 4
  · subst h1; exact ⟨_, e4 (by omega)⟩
  by_cases h1 : fx = 8
  · subst h1; exact ⟨_, e8 (by omega)⟩
  · refine ⟨0, ?_⟩
    unfold getUintValue
    split <;> first | rfl | omega

theorem int_own (v : Bytes) (fx : Nat) (h : fx = v.length) : ∃ a, getIntValue fx v = some a := by
  have e1 := @read1_own v []
  have e2 := @read2_own v []
  have e3 := @read3_own v []
  have e4 := @read4_own v []
  have e8 := @read8_own v []
  rw [List.append_nil] at e1 e2 e3 e4 e8
  by_cases h1 : fx = 1
  · subst h1; exact ⟨_, by simp only [getIntValue]; rw [e1 (by omega)]; rfl⟩
  by_cases h1 : fx = 2
  · subst h1; exact ⟨_, by simp only [getIntValue]; rw [e2 (by omega)]; rfl⟩
  by_cases h1 : fx = 3
  · subst h1
    simp only [getIntValue]; rw [e3 (by omega)]
    simp only [Option.bind_eq_bind, Option.bind_some]
    split <;> exact ⟨_, rfl⟩
  by_cases h1 : fx = 4
  · subst h1; exact ⟨_, by simp only [getIntValue]; rw [e4 (by omega)]; rfl⟩
  by_cases h1 : fx = 8
  · subst h1; exact ⟨_, by simp only [getIntValue]; rw [e8 (by omega)]; rfl⟩
  · refine ⟨.int 0, ?_⟩
    unfold getIntValue
    split <;> first | rfl | omega

theorem datetime_own (v : Bytes) (h : 8 ≤ v.length) : ∃ a, ∀ rest, parseDateTime (v ++ rest) = some a := by
  have e : ∀ rest, parseDateTime (v ++ rest) = parseDateTime v := by
    intro rest
    have := read8_own [] h
    rw [List.append_nil] at this
    unfold parseDateTime getTimeFormat
    rw [read8_own rest h, this]
  have e2 : ∃ a, parseDateTime v = some a := by
    have := read8_own [] h
    rw [List.append_nil] at this
    unfold parseDateTime getTimeFormat
    rw [this]
    simp only [Option.bind_eq_bind, Option.bind_some]
    repeat' split
    all_goals exact ⟨_, rfl⟩
  obtain ⟨a, ha⟩ := e2
  exact ⟨a, fun rest => by rw [e, ha]⟩

theorem parseData_own (env : Env) (c : Column) (k : ColDef) (v : Bytes) (hd : Describes c k) (hs : RealSize c.mtype k.kind)
    (hb : ¬ LooksBeyond c.mtype k.kind) (hv : ∀ n, k.kind.storage = .fixed n → v.length = n) :
    OwnBytes env c.ftype c.mtype v (getFixedLength c.ftype c.len) c.isUnsigned c.isBinary := by
  obtain ⟨kind, nullable⟩ := k
  obtain ⟨_, h2, h3⟩ := hd
  have str : ∀ (rest : Bytes), sliceTo (v ++ rest) v.length = some v := fun rest => by
    rw [slice_own _ _ _ (Nat.le_refl _), List.take_length]
  dsimp only at *
  generalize c.isUnsigned = u
  generalize c.isBinary = b
  generalize c.mtype = m at *
  generalize hf : c.ftype = t at *
  cases kind with
  | charSingle n => subst h2; exact own_of_opt (fun a => Val.str (trimSpace a)) b _ (fun _ _ => rfl) v str
  | varcharLatin1 n => subst h2; exact own_of_opt Val.str b _ (fun _ _ => rfl) v str
  | charLatin1 n => subst h2; exact own_of_opt Val.str b _ (fun _ _ => rfl) v str
  | varchar n => subst h2; exact own_of_opt Val.str b _ (fun _ _ => rfl) v str
  | charMulti n => subst h2; exact own_of_opt (fun a => Val.str (trimSpace a)) b _ (fun _ _ => rfl) v str
  | float =>
    subst h2
    have := hv 4 rfl
    have e : ∃ a, ∀ rest, parseFloat (v ++ rest) = some a := by
      match v, this with
      | [a, b, c, d], _ => exact ⟨_, fun _ => rfl⟩
    obtain ⟨a, ha⟩ := e
    exact own_of_opt Val.f32 b (fun rest => parseFloat (v ++ rest)) (fun _ _ => rfl) a ha
  | double =>
    subst h2
    have := hv 8 rfl
    have e : ∃ a, ∀ rest, parseDouble (v ++ rest) = some a := by
      match v, this with
      | [a, b, c, d, e, f, g, h], _ => exact ⟨_, fun _ => rfl⟩
    obtain ⟨a, ha⟩ := e
    exact own_of_opt Val.f64 b (fun rest => parseDouble (v ++ rest)) (fun _ _ => rfl) a ha
  | system n => subst h2; exact ⟨.nil, b, [], fun rest out => by rw [List.append_nil]; rfl⟩
  | blob =>
    subst h2
    cases b with
    | true => exact own_of_opt (fun a => Val.str (parseBlob a)) true _ (fun _ _ => rfl) v str
    | false => exact own_of_opt Val.str false _ (fun _ _ => rfl) v str
  | varbinary n =>
    subst h2
    rw [show c.len = 0 from h3]
    by_cases hm : m = MYSQL_TYPE_VARCHAR
    · subst hm; exact own_of_opt (fun a => Val.str (parseBlob a)) true _ (fun _ _ => rfl) v str
    · refine own_of_opt Val.str b _ (fun rest out => ?_) v str
      simp only [parseData, Kind.mainType, DATA_VARCHAR, DATA_CHAR, DATA_FIXBINARY, DATA_BINARY, Nat.reduceEqDiff, if_false, if_true, if_neg hm]
      rfl
  | int w =>
    subst h2
    have hl := hv w rfl
    rw [show c.len = w from h3, show getFixedLength (Kind.int w).mainType w = w from rfl]
    by_cases hm : m = MYSQL_TYPE_DATE
    · subst hm
      have hw := hs.2 rfl
      have e : ∃ a, ∀ rest, parseDate (v ++ rest) = some a := ⟨_, fun rest => by unfold parseDate; rw [read3_own rest (by omega)]; rfl⟩
      obtain ⟨a, ha⟩ := e
      exact own_of_opt Val.str b (fun rest => parseDate (v ++ rest)) (fun _ _ => rfl) a ha
    by_cases hy : m = MYSQL_TYPE_YEAR
    · subst hy
      exact own_of_opt (fun a => Val.uint (a + 1900)) b (fun rest => matchReadFrom1 (v ++ rest)) (fun _ _ => rfl) _ (fun rest => read1_own rest (by
        have := hs.1; omega))
    cases u with
    | true =>
      obtain ⟨a, ha⟩ := uint_own v w hl.symm (by have := hs.1; omega)
      refine own_of_opt Val.uint b (fun rest => (sliceTo (v ++ rest) v.length).bind (getUintValue w)) (fun rest out => ?_) a (fun rest => by rw [str]; exact ha)
      simp only [parseData, Kind.mainType, DATA_VARCHAR, DATA_CHAR, DATA_FIXBINARY, DATA_BINARY, DATA_INT, Nat.reduceEqDiff, if_false, if_true, if_neg hm,
        if_neg hy, str, Option.bind_some]
      rfl
    | false =>
      obtain ⟨a, ha⟩ := int_own v w hl.symm
      refine own_of_opt id b (fun rest => (sliceTo (v ++ rest) v.length).bind (getIntValue w)) (fun rest out => ?_) a (fun rest => by rw [str]; exact ha)
      simp only [parseData, Kind.mainType, DATA_VARCHAR, DATA_CHAR, DATA_FIXBINARY, DATA_BINARY, DATA_INT, Nat.reduceEqDiff, if_false, if_true, if_neg hm,
        if_neg hy, str, Option.bind_some, Bool.false_eq_true]
      rfl
  | fixBinary n =>
    subst h2
    have hl := hv n rfl
    rw [show c.len = n from h3, show getFixedLength (Kind.fixBinary n).mainType n = n from rfl]
    obtain ⟨s1, s2, s3, s4⟩ := hs
    by_cases m1 : m = MYSQL_TYPE_TIME
    · subst m1
      have e : ∃ a, ∀ rest, parseTime (v ++ rest) = some a := ⟨_, fun rest => by
        unfold parseTime; rw [read3_own rest (by have := s1 rfl; omega)]; rfl⟩
      obtain ⟨a, ha⟩ := e
      exact own_of_opt Val.str b (fun rest => parseTime (v ++ rest)) (fun _ _ => rfl) a ha
    by_cases m2 : m = MYSQL_TYPE_TIMESTAMP
    · subst m2
      have e : ∃ a, ∀ rest, parseTimeStamp env.zone (v ++ rest) = some a := ⟨_, fun rest => by
        unfold parseTimeStamp; rw [read4_own rest (by have := s2 rfl; omega)]; rfl⟩
      obtain ⟨a, ha⟩ := e
      exact own_of_opt Val.str b (fun rest => parseTimeStamp env.zone (v ++ rest)) (fun _ _ => rfl) a ha
    by_cases m3 : m = MYSQL_TYPE_DATETIME
    · subst m3
      obtain ⟨a, ha⟩ := datetime_own v (by
        have := s3 rfl
        have : ¬ (5 ≤ n ∧ n ≤ 7) := fun h => hb ⟨Or.inl rfl, h⟩
        omega)
      exact own_of_opt Val.str b (fun rest => parseDateTime (v ++ rest)) (fun _ _ => rfl) a ha
    by_cases m4 : m = MYSQL_TYPE_BIT
    · subst m4
      obtain ⟨a, ha⟩ := uint_own v n hl.symm (fun h => hb ⟨Or.inr rfl, h⟩)
      refine own_of_opt Val.uint b (fun rest => (sliceTo (v ++ rest) v.length).bind (getUintValue n)) (fun rest out => ?_) a (fun rest => by rw [str]; exact ha)
      simp only [parseData, Kind.mainType, DATA_VARCHAR, DATA_CHAR, DATA_FIXBINARY, Nat.reduceEqDiff, if_false, if_true, if_neg m1,
        if_neg m2, if_neg m3, str, Option.bind_some]
      rfl
    by_cases m5 : m = MYSQL_TYPE_NEWDECIMAL
    · subst m5
      refine ⟨.str v, b, [b! "test MYSQL_TYPE_NEWDECIMAL"], fun rest out => ?_⟩
      simp only [parseData, Kind.mainType, DATA_VARCHAR, DATA_CHAR, DATA_FIXBINARY, Nat.reduceEqDiff, if_false, if_true, if_neg m1,
        if_neg m2, if_neg m3, if_neg m4, str]
      rfl
    by_cases m6 : m = MYSQL_TYPE_STRING
    · subst m6; exact own_of_opt (fun a => Val.str (parseBlob a)) true _ (fun _ _ => rfl) v str
    · refine own_of_opt Val.str b _ (fun rest out => ?_) v str
      simp only [parseData, Kind.mainType, DATA_VARCHAR, DATA_CHAR, DATA_FIXBINARY, Nat.reduceEqDiff, if_false, if_true, if_neg m1,
        if_neg m2, if_neg m3, if_neg m4, if_neg m5, if_neg m6]

/-- the columns are those of the table, and none of them looks beyond its bytes -/
def OwnCols (cols : List Column) (defs : List ColDef) : Prop :=
  All2 (fun c k => Describes c k ∧ RealSize c.mtype k.kind ∧ ¬ LooksBeyond c.mtype k.kind) cols defs

/-- Decoding the cell gives the value of its own bytes, whatever is behind it. -/
def CellOk (env : Env) (c : Column) (x : Cell) : Prop :=
  ∃ b l, ∀ rest out, decodeCell env c x rest out = .ok { c with value := ownValue env c x, isBinary := b } (out ++ l)

theorem cell_own (env : Env) (c : Column) (k : ColDef) (x : Cell) (hd : Describes c k) (hs : RealSize c.mtype k.kind)
    (hb : ¬ LooksBeyond c.mtype k.kind) (hv : x ≠ .null → ∀ n, k.kind.storage = .fixed n → x.bytes.length = n) : CellOk env c x := by
  have main : ∀ y : Bytes, (∀ n, k.kind.storage = .fixed n → y.length = n) → ∃ w b l, ∀ rest out,
      (parseData env c.ftype c.mtype (y ++ rest) y.length (getFixedLength c.ftype c.len)
        c.isUnsigned c.isBinary >>= fun p => pure { c with value := p.1, isBinary := p.2 } : GoM Out Column) out =
          .ok { c with value := w, isBinary := b } (out ++ l) := by
    intro y hy
    obtain ⟨w, f, l, h⟩ := parseData_own env c k y hd hs hb hy
    exact ⟨w, f, l, fun rest out => by rw [GoM.bind_run, h]; rfl⟩
  cases x with
  | null => exact ⟨c.isBinary, [], fun rest out => by rw [List.append_nil]; rfl⟩
  | val v =>
    obtain ⟨w, b, l, h⟩ := main v (hv (by simp))
    have e : ownValue env c (.val v) = w := by
      unfold ownValue
      rw [show decodeCell env c (.val v) [] [] = _ from h [] []]
    exact ⟨b, l, fun rest out => by rw [e]; exact h rest out⟩
  | ext v =>
    obtain ⟨w, b, l, h⟩ := main v (hv (by simp))
    have e : ownValue env c (.ext v) = w := by
      unfold ownValue
      rw [show decodeCell env c (.ext v) [] [] = _ from h [] []]
    exact ⟨b, l, fun rest out => by rw [e]; exact h rest out⟩

theorem ownValue_skel (env : Env) {c d : Column} (h : skel c = skel d) (x : Cell) : ownValue env c x = ownValue env d x := by
  have := decodeCell_static false (fun _ _ => True) stable_true env c d x [] h [] [] trivial
  unfold ownValue
  generalize decodeCell env c x [] [] = r1 at this
  generalize decodeCell env d x [] [] = r2 at this
  cases this with
  | ok hp _ => exact hp.2.2.1
  | panic _ => rfl
  | hang _ => rfl

theorem ownCols_skel {cs cs' : List Column} {defs : List ColDef} (h : cs'.map skel = cs.map skel) (hd : OwnCols cs defs) : OwnCols cs' defs := by
  unfold OwnCols at *
  induction hd generalizing cs' with
  | nil =>
    cases cs' with
    | nil => exact .nil
    | cons => simp at h
  | cons h1 _ ih =>
    cases cs' with
    | nil => simp at h
    | cons c' cs' =>
      simp only [List.map_cons, List.cons.injEq] at h
      have hm := (skel_fields h.1).2.2.1
      exact .cons ⟨describes_skel h.1 h1.1, by rw [hm]; exact h1.2.1, by rw [hm]; exact h1.2.2⟩ (ih h.2)

theorem own_zip_skel (env : Env) {cs cs' : List Column} (h : cs'.map skel = cs.map skel) (xs : List Cell) :
    List.zipWith (ownValue env) cs' xs = List.zipWith (ownValue env) cs xs := by
  induction cs generalizing cs' xs with
  | nil =>
    cases cs' with
    | nil => rfl
    | cons => simp at h
  | cons c cs ih =>
    cases cs' with
    | nil => simp at h
    | cons c' cs' =>
      simp only [List.map_cons, List.cons.injEq] at h
      cases xs with
      | nil => rfl
      | cons x xs => rw [List.zipWith_cons_cons, List.zipWith_cons_cons, ownValue_skel env h.1, ih h.2]

theorem row_own (env : Env) (cols : List Column) (row : Row) (h : All2 (fun c e => CellOk env c e.2) cols row) (post : Bytes) (out : Out) :
    ∃ cs l, decodeRow env cols row post out = .ok cs (out ++ l) ∧ cs.map (·.value) = List.zipWith (ownValue env) cols (row.map (·.2)) := by
  induction h generalizing out with
  | nil => exact ⟨[], [], by rw [List.append_nil]; rfl, rfl⟩
  | @cons c e cols row h1 _ ih =>
    obtain ⟨b, l, h1⟩ := h1
    obtain ⟨cs, l', h2, h3⟩ := ih (out ++ l)
    refine ⟨{ c with value := ownValue env c e.2, isBinary := b } :: cs, l ++ l', ?_, ?_⟩
    · unfold decodeRow
      rw [GoM.bind_run, h1]
      simp only
      rw [GoM.bind_run, h2, List.append_assoc]
      rfl
    · rw [List.map_cons, h3]
      rfl

/-- the cells of the row have the sizes of their columns -/
def SizedRow (defs : List ColDef) (row : Row) : Prop :=
  All2 (fun k e => e.2 ≠ .null → ∀ n, k.kind.storage = .fixed n → e.2.bytes.length = n) defs row

theorem cells_own (env : Env) {cols : List Column} {defs : List ColDef} {row : Row} (ho : OwnCols cols defs) (hz : SizedRow defs row) :
    All2 (fun c e => CellOk env c e.2) cols row := by
  unfold OwnCols at ho
  unfold SizedRow at hz
  induction ho generalizing row with
  | nil => cases hz; exact .nil
  | cons h1 _ ih =>
    cases hz with
    | cons h2 h3 => exact .cons (cell_own env _ _ _ h1.1 h1.2.1 h1.2.2 h2) (ih h3)

theorem rows_own (env : Env) (defs : List ColDef) (rows : List (Row × Bytes)) (hz : ∀ r ∈ rows, SizedRow defs r.1) (s : PState)
    (ho : OwnCols s.cols defs) :
    ∃ rs s', decodeRows env rows s = .ok rs s' ∧
      rs.map (·.map (·.value)) = rows.map fun r => List.zipWith (ownValue env) s.cols (r.1.map (·.2)) := by
  induction rows generalizing s with
  | nil => exact ⟨[], s, rfl, rfl⟩
  | cons r rows ih =>
    obtain ⟨row, post⟩ := r
    have hz1 := hz (row, post) (by simp)
    obtain ⟨cs, l, h1, h2⟩ := row_own env s.cols row (cells_own env ho hz1) post s.out
    have hl : s.cols.length = row.length := by rw [all2_length ho, all2_length hz1]
    have hsk := decodeRow_skel h1 hl
    obtain ⟨rs, s', h3, h4⟩ := ih (fun r hr => hz r (by simp [hr])) ⟨cs, s.out ++ l⟩ (ownCols_skel hsk ho)
    refine ⟨cs :: rs, s', ?_, ?_⟩
    · unfold decodeRows
      rw [GoM.bind_run, decodeRowP_run, h1]
      simp only
      rw [GoM.bind_run, h3]
      rfl
    · rw [List.map_cons, List.map_cons, h2, h4]
      congr 1
      refine List.map_congr_left fun r _ => ?_
      exact own_zip_skel env hsk _

theorem sized_compact {defs : List ColDef} {cells : List Cell} (h : Storable defs cells) : SizedRow defs (rowOf defs cells) := by
  unfold SizedRow
  induction h with
  | nil => exact .nil
  | @cons k x defs cells hf _ ih =>
    refine .cons ?_ ih
    intro hx n hn
    dsimp only at hx ⊢
    unfold Fits at hf
    rw [show k.scol.storage = .fixed n from hn] at hf
    cases x with
    | null => exact absurd rfl hx
    | val v => exact hf
    | ext v => exact absurd hf.1 (by simp)

theorem rowOf_cells {defs : List ColDef} {cells : List Cell} (h : Storable defs cells) : (rowOf defs cells).map (·.2) = cells := by
  induction h with
  | nil => rfl
  | @cons k x defs cells hf _ ih =>
    simp only [rowOf, List.zip_cons_cons, List.map_cons, List.cons.injEq, true_and] at ih ⊢
    exact ih

theorem sized_old {defs : List ColDef} {row : List OldCell} (h : OldStorable defs row) : SizedRow defs (viewOld row) := by
  unfold SizedRow
  induction h with
  | nil => exact .nil
  | @cons k x defs cells hf _ ih =>
    refine .cons ?_ ih
    intro hx n hn
    have := hf.2
    rw [hn] at this
    exact this

theorem storedRows_own (env : Env) (cols : List Column) (d : Bytes) (defs : List ColDef) {os : List Nat} {rows : List (List Cell)}
    (h : All2 (CompactRow d defs) os rows) :
    (∀ r ∈ storedRows d defs os rows, SizedRow defs r.1) ∧
    ((storedRows d defs os rows).map fun r => List.zipWith (ownValue env) cols (r.1.map (·.2))) = rows.map (List.zipWith (ownValue env) cols) := by
  induction h with
  | nil => exact ⟨by simp [storedRows], rfl⟩
  | cons h1 _ ih =>
    refine ⟨?_, ?_⟩
    · intro r hr
      rcases List.mem_cons.mp hr with rfl | hr
      · exact sized_compact h1.1
      · exact ih.1 r hr
    · simp only [storedRows, List.map_cons, rowOf_cells h1.1, List.cons.injEq, true_and]
      exact ih.2

/-- the bytes of a REDUNDANT record, as the code reads them: NULLs are not seen (C21) -/
def oldCells (row : List OldCell) : List Cell := row.map fun x => .val x.bytes

theorem storedOldRows_own (env : Env) (cols : List Column) (d : Bytes) (defs : List ColDef) {os : List Nat} {rows : List (Nat × List OldCell)}
    (h : All2 (OldRow d defs) os rows) :
    (∀ r ∈ storedOldRows d os rows, SizedRow defs r.1) ∧
    ((storedOldRows d os rows).map fun r => List.zipWith (ownValue env) cols (r.1.map (·.2))) =
      rows.map fun r => List.zipWith (ownValue env) cols (oldCells r.2) := by
  induction h with
  | nil => exact ⟨by simp [storedOldRows], rfl⟩
  | @cons o r os rows h1 _ ih =>
    refine ⟨?_, ?_⟩
    · intro r hr
      rcases List.mem_cons.mp hr with rfl | hr
      · exact sized_old h1.1
      · exact ih.1 r hr
    · have e : (viewOld r.2).map (·.2) = oldCells r.2 := by
        unfold viewOld oldCells
        rw [List.map_map]
        rfl
      simp only [storedOldRows, List.map_cons, e, List.cons.injEq, true_and]
      exact ih.2

/-! ## C95 -/

/-- **C95**, as stated, for the COMPACT records of tables whose columns the code reads (C20): there is a function that gives the printed value of a
column from its definition and its stored bytes, and no record aborts the program.  (A record is followed by at least three more bytes: at least the
page trailer.) -/
def C95_statement : Prop :=
  ∀ env : Env, ∃ f : Column → Cell → Val, ∀ (tables : TableMap) (defs : List ColDef) (cells : List Cell) (d : Bytes) (o : Nat) (s : PState),
    Known tables s.cols defs → Storable defs cells → 3 ≤ defs.length → d.length ≤ 16384 → CompactAt d o (rowOf defs cells) →
    (∀ k ∈ defs, k.kind.Readable) → All2 (fun c k => RealSize c.mtype k.kind) s.cols defs → o + (rowData (rowOf defs cells)).length + 3 ≤ d.length →
    ∃ cs s', parseOne env tables d true o s = .ok (some cs) s' ∧ cs.map (·.value) = List.zipWith (fun c x => f (skel c) x) s.cols cells

/-- **C95, one record (partial).**  Missing: DATETIME and BIT columns in 5 to 7 bytes. -/
theorem C95_record_partial (env : Env) (tables : TableMap) (defs : List ColDef) (cells : List Cell) (d : Bytes) (o : Nat) (s : PState)
    (hk : Known tables s.cols defs) (hst : Storable defs cells) (h3 : 3 ≤ defs.length) (hd : d.length ≤ 16384) (hc : CompactAt d o (rowOf defs cells))
    (hr : ∀ k ∈ defs, k.kind.Readable) (ho : OwnCols s.cols defs) :
    ∃ cs s', parseOne env tables d true o s = .ok (some cs) s' ∧ cs.map (·.value) = List.zipWith (ownValue env) s.cols cells := by
  obtain ⟨cs, l, h1, h2⟩ := row_own env s.cols _ (cells_own env ho (sized_compact hst)) (d.drop (o + (rowData (rowOf defs cells)).length)) s.out
  rw [C20_compact_rows_partial env tables defs cells d o s hk hst h3 hd hc hr, h1]
  exact ⟨_, _, rfl, by rw [h2, rowOf_cells hst]⟩

/-- **C95 (partial).**  Whatever bytes are stored in the records of a COMPACT page, printing it and recovering its deleted rows end normally, and every
value is that of the bytes of its own column.  Missing: the columns excluded by `OwnCols`. -/
theorem C95_compact_partial (env : Env) (tables : TableMap) (defs : List ColDef) (d : Bytes) (recovery : Bool) (free : Nat) (os : List Nat)
    (rows : List (List Cell)) (s : PState) (hk : Known tables s.cols defs) (h3 : 3 ≤ defs.length) (hd : d.length = 16384) (hc : isCompact d = true)
    (hl : if recovery then FreeList d true free os else Linked d true (infimumAt true) os)
    (hrows : All2 (CompactRow d defs) os rows) (hr : ∀ k ∈ defs, k.kind.Readable) (ho : OwnCols s.cols defs) :
    ∃ rs s', parsePage env tables d recovery free s = .ok rs s' ∧ rs.map (·.map (·.value)) = rows.map (List.zipWith (ownValue env) s.cols) := by
  obtain ⟨h1, h2⟩ := storedRows_own env s.cols d defs hrows
  obtain ⟨rs, s', h4, h5⟩ := rows_own env defs _ h1 s ho
  refine ⟨rs, s', ?_, by rw [h5, h2]⟩
  cases recovery with
  | true => rw [C23_compact_page_partial env tables defs d free os rows s hk h3 hd hc hl hrows hr, h4]
  | false => rw [C22_compact_page_partial env tables defs d free os rows s hk h3 hd hc hl hrows hr, h4]

/-- **C95 for REDUNDANT pages (partial).** -/
theorem C95_redundant_partial (env : Env) (tables : TableMap) (defs : List ColDef) (d : Bytes) (recovery : Bool) (free : Nat) (os : List Nat)
    (rows : List (Nat × List OldCell)) (s : PState) (h3 : 3 ≤ defs.length) (hd : d.length = 16384)
    (hc : isCompact d = false) (hl : if recovery then FreeList d false free os else Linked d false (infimumAt false) os)
    (hrows : All2 (OldRow d defs) os rows) (hr : ∀ k ∈ defs, ∀ m, k.kind = .varcharLatin1 m → m = 0) (ho : OwnCols s.cols defs) :
    ∃ rs s', parsePage env tables d recovery free s = .ok rs s' ∧
      rs.map (·.map (·.value)) = rows.map fun r => List.zipWith (ownValue env) s.cols (oldCells r.2) := by
  have hk : All2 Describes s.cols defs := all2_imp (fun _ _ h => h.1) ho
  obtain ⟨h1, h2⟩ := storedOldRows_own env s.cols d defs hrows
  obtain ⟨rs, s', h4, h5⟩ := rows_own env defs _ h1 s ho
  refine ⟨rs, s', ?_, by rw [h5, h2]⟩
  cases recovery with
  | true => rw [C23_redundant_page_partial env tables defs d free os rows s hk h3 hd hc hl hrows hr, h4]
  | false => rw [C22_redundant_page_partial env tables defs d free os rows s hk h3 hd hc hl hrows hr, h4]

/-! ### C95 is false of the code: a DATETIME outside the years 1991 to 2099 -/

def lateDefs : List ColDef := ⟨.fixBinary 5, false⟩ :: trxAndRoll
/-- the DATETIME 1980-01-01 00:00:00, followed by the transaction id -/
def lateCells (b : UInt8) : List Cell := [.val (datetimeNewEnc ⟨1980, 1, 1, 0, 0, 0⟩), .val [0, 0, b, 0, 0, 0], .val [0, 0, 0, 0, 0, 0, 0]]
def lateCols : List Column := (testCols lateDefs).map fun c => if c.ftype = DATA_FIXBINARY then { c with mtype := MYSQL_TYPE_DATETIME } else c
def lateTables : TableMap := [(1, { columns := lateCols })]

theorem late_known : Known lateTables lateCols lateDefs :=
  ⟨by decide, { (lateCols.getD 0 {}) with }, { columns := lateCols }, rfl, rfl, by decide, rfl⟩

theorem late_row (b : UInt8) (hb : b = 0 ∨ b = 1) : ∃ cs s', parseOne testEnv lateTables (testPage (rowOf lateDefs (lateCells b))) true
    ([1] ++ compactPrefix (rowOf lateDefs (lateCells b)) [0, 0, 0, 0, 0]).length ⟨lateCols, []⟩ = .ok (some cs) s' ∧
    (cs.map (·.value))[0]? = some (.str (if b = 0 then b! "6404-29-00 50:45:76" else b! "6404-29-00 50:45:77")) := by
  have hst : Storable lateDefs (lateCells b) := by rcases hb with rfl | rfl <;> decide
  rw [C20_compact_rows_partial testEnv lateTables lateDefs (lateCells b) _ _ ⟨lateCols, []⟩ late_known hst (by decide)
    (by rcases hb with rfl | rfl <;> decide) (testPage_at _) (by decide)]
  rcases hb with rfl | rfl <;> exact ⟨_, _, rfl, by decide⟩

/-- **C95 is false of the code**: the printed value of a DATETIME column depends on the column behind it. -/
theorem C95_false : ¬ C95_statement := by
  intro h
  obtain ⟨f, h⟩ := h testEnv
  have key : ∀ b : UInt8, b = 0 ∨ b = 1 → f (skel (lateCols.getD 0 {})) (.val (datetimeNewEnc ⟨1980, 1, 1, 0, 0, 0⟩)) =
      .str (if b = 0 then b! "6404-29-00 50:45:76" else b! "6404-29-00 50:45:77") := by
    intro b hb
    obtain ⟨cs, s', h1, h2⟩ := late_row b hb
    obtain ⟨cs', s'', h3, h4⟩ := h lateTables lateDefs (lateCells b) _ _ ⟨lateCols, []⟩ late_known
      (by rcases hb with rfl | rfl <;> decide) (by decide) (by rcases hb with rfl | rfl <;> decide) (testPage_at _) (by decide) (by decide)
      (by rcases hb with rfl | rfl <;> decide)
    rw [h1] at h3
    cases h3
    rw [h4] at h2
    exact Option.some.inj h2
  have := (key 0 (Or.inl rfl)).symm.trans (key 1 (Or.inr rfl))
  revert this
  decide

/-! ### Exactly which values -/

/-- the bits are those of a date and time of the years 1991 to 2099 -/
def InRange (n : Nat) : Prop :=
  2 ^ 63 ≤ n ∧ n / 2 ^ 46 % 2 ^ 17 / 13 > 1990 ∧ n / 2 ^ 46 % 2 ^ 17 / 13 < 2100 ∧ n / 2 ^ 46 % 2 ^ 17 % 13 ≥ 1 ∧
    n / 2 ^ 41 % 2 ^ 5 ≥ 1 ∧ n / 2 ^ 36 % 2 ^ 5 ≤ 23 ∧ n / 2 ^ 30 % 2 ^ 6 ≤ 59 ∧ n / 2 ^ 24 % 2 ^ 6 ≤ 59

theorem datetime_decimal {d : Bytes} {n : Nat} (h : matchReadFrom8 d = some n) (hn : n < 2 ^ 64) (hr : ¬ InRange n) :
    ∃ y m dd hh mi, parseDateTime d = some (fmtDateTime y m dd hh mi (n % 2 ^ 63 % 100)) := by
  have hf : getTimeFormat d = some 0 ∨ getTimeFormat d = some 1 := by
    by_cases h63 : 2 ^ 63 ≤ n
    · rw [timeFormat_sign h h63 hn, if_neg]
      · exact Or.inl rfl
      · intro hh
        refine hr ⟨h63, hh.1, hh.2.1, ?_, hh.2.2.2.2.1, hh.2.2.2.2.2.2⟩
        have := hh.2.2.1
        omega
    · have e : n >>> 63 = 0 := by rw [Nat.shiftRight_eq_div_pow]; omega
      unfold getTimeFormat
      rw [h]
      simp only [Option.bind_eq_bind, Option.bind_some, e, if_true]
      split
      · exact Or.inr rfl
      · exact Or.inl rfl
  unfold parseDateTime
  rcases hf with hf | hf <;> rw [hf, h] <;> simp only [Option.bind_eq_bind, Option.bind_some, clear63] <;> exact ⟨_, _, _, _, _, rfl⟩

theorem datetime_bits {d : Bytes} {n : Nat} (h : matchReadFrom8 d = some n) (hn : n < 2 ^ 64) (hr : InRange n) :
    parseDateTime d = some (fmtDateTime (n / 2 ^ 46 % 2 ^ 17 / 13) (n / 2 ^ 46 % 2 ^ 17 - n / 2 ^ 46 % 2 ^ 17 / 13 * 13) (n / 2 ^ 41 % 2 ^ 5)
      (n / 2 ^ 36 % 2 ^ 5) (n / 2 ^ 30 % 2 ^ 6) (n / 2 ^ 24 % 2 ^ 6)) := by
  obtain ⟨h1, h2, h3, h4, h5, h6, h7, h8⟩ := hr
  unfold parseDateTime
  rw [timeFormat_sign h h1 hn, h, if_pos ⟨h2, h3, by omega, by omega, h5, by omega, h6, h7, h8⟩]
  simp only [Option.bind_eq_bind, Option.bind_some, yd_field, day_field, hour_field, min_field, sec_field]
  rfl

theorem fmt_sec {y m d h i s y' m' d' h' i' s' : Nat} (hs : s < 100) (hs' : s' < 100) (e : fmtDateTime y m d h i s = fmtDateTime y' m' d' h' i' s') :
    s = s' := by
  unfold fmtDateTime at e
  rw [dec2_decEnc hs, dec2_decEnc hs'] at e
  have := (List.append_inj' e (by simp [decEnc_length])).2
  exact decEnc_inj (w := 2) (by omega) (by omega) this

/-- a date and time of the years 1991 to 2099 (the day need not exist) -/
def Recent (c : Civil) : Prop :=
  1991 ≤ c.year ∧ c.year ≤ 2099 ∧ 1 ≤ c.month ∧ c.month ≤ 12 ∧ 1 ≤ c.day ∧ c.day ≤ 31 ∧ c.hour ≤ 23 ∧ c.min ≤ 59 ∧ c.sec ≤ 59

theorem high_part {a f : Nat} (hf : f < 2 ^ 24) (h : 2 ^ 63 ≤ a * 2 ^ 24 + f) : 2 ^ 63 ≤ a * 2 ^ 24 := by
  rcases Nat.lt_or_ge a (2 ^ 39) with h1 | h1
  · exfalso; omega
  · rw [show 63 = 39 + 24 from rfl, Nat.pow_add]
    exact Nat.mul_le_mul_right _ h1

/-- **C95, exactly, for DATETIME columns in 5 to 7 bytes.**  The printed value is determined by the bytes of the column if and only if they begin with
a date and time of the years 1991 to 2099. -/
theorem C95_datetime_iff (v : Bytes) (h5 : 5 ≤ v.length) (h7 : v.length ≤ 7) :
    (∃ t, ∀ rest : Bytes, 3 ≤ rest.length → parseDateTime (v ++ rest) = some t) ↔ ∃ c, Recent c ∧ v.take 5 = datetimeNewEnc c := by
  have hread : ∀ rest : Bytes, 3 ≤ rest.length → matchReadFrom8 (v ++ rest) =
      some (beVal (v.take 5) * 2 ^ 24 + beVal ((v.drop 5 ++ rest).take 3)) := by
    intro rest hr
    rw [matchReadFrom8_eq, if_pos (by rw [List.length_append]; omega), beVal_take_add _ 5 3 (by rw [List.length_append]; omega),
      List.take_append_of_le_length h5, List.drop_append_of_le_length h5, show (256 : Nat) ^ 3 = 2 ^ 24 by decide]
  have hlow : ∀ rest : Bytes, beVal ((v.drop 5 ++ rest).take 3) < 2 ^ 24 := fun rest => Nat.lt_of_lt_of_le (beVal_take_lt _ _) (by omega)
  have htop : beVal (v.take 5) < 2 ^ 40 := Nat.lt_of_lt_of_le (beVal_take_lt _ _) (by omega)
  have hfive : (v.take 5).length = 5 := by rw [List.length_take]; omega
  have hone : beEnc 5 (beVal (v.take 5)) = v.take 5 := by
    have := beEnc_beVal (v.take 5)
    rw [hfive] at this
    exact this
  generalize beVal (v.take 5) = a at *
  constructor
  · rintro ⟨t, ht⟩
    by_cases hin : InRange (a * 2 ^ 24)
    · obtain ⟨i1, i2, i3, i4, i5, i6, i7, i8⟩ := hin
      refine ⟨⟨a / 2 ^ 22 % 2 ^ 17 / 13, a / 2 ^ 22 % 2 ^ 17 % 13, a / 2 ^ 17 % 2 ^ 5, a / 2 ^ 12 % 2 ^ 5, a / 2 ^ 6 % 2 ^ 6, a % 2 ^ 6⟩, ?_, ?_⟩
      · have e1 : a * 2 ^ 24 / 2 ^ 46 = a / 2 ^ 22 := by omega
        have e2 : a * 2 ^ 24 / 2 ^ 41 = a / 2 ^ 17 := by omega
        have e3 : a * 2 ^ 24 / 2 ^ 36 = a / 2 ^ 12 := by omega
        have e4 : a * 2 ^ 24 / 2 ^ 30 = a / 2 ^ 6 := by omega
        have e5 : a * 2 ^ 24 / 2 ^ 24 = a := by omega
        rw [e1] at i2 i3 i4
        rw [e2] at i5
        rw [e3] at i6
        rw [e4] at i7
        rw [e5] at i8
        refine ⟨?_, ?_, ?_, ?_, ?_, ?_, ?_, ?_, ?_⟩ <;> dsimp only <;> omega
      · rw [← hone]
        unfold datetimeNewEnc
        dsimp only
        congr 1
        omega
    · exfalso
      have hno : ∀ f, f < 2 ^ 24 → ¬ InRange (a * 2 ^ 24 + f) := by
        intro f hf hh
        refine hin ?_
        unfold InRange at hh ⊢
        have e1 : (a * 2 ^ 24 + f) / 2 ^ 46 = a * 2 ^ 24 / 2 ^ 46 := by omega
        have e2 : (a * 2 ^ 24 + f) / 2 ^ 41 = a * 2 ^ 24 / 2 ^ 41 := by omega
        have e3 : (a * 2 ^ 24 + f) / 2 ^ 36 = a * 2 ^ 24 / 2 ^ 36 := by omega
        have e4 : (a * 2 ^ 24 + f) / 2 ^ 30 = a * 2 ^ 24 / 2 ^ 30 := by omega
        have e5 : (a * 2 ^ 24 + f) / 2 ^ 24 = a * 2 ^ 24 / 2 ^ 24 := by omega
        obtain ⟨g1, g2, g3, g4, g5, g6, g7, g8⟩ := hh
        rw [e1] at g2 g3 g4
        rw [e2] at g5
        rw [e3] at g6
        rw [e4] at g7
        rw [e5] at g8
        exact ⟨high_part hf g1, g2, g3, g4, g5, g6, g7, g8⟩
      have sec : ∀ rest : Bytes, 3 ≤ rest.length → ∃ y m dd hh mi, t = fmtDateTime y m dd hh mi ((a * 2 ^ 24 + beVal ((v.drop 5 ++ rest).take 3)) % 2 ^ 63 % 100) := by
        intro rest hr
        obtain ⟨y, m, dd, hh, mi, e⟩ := datetime_decimal (hread rest hr) (by have := hlow rest; omega) (hno _ (hlow rest))
        rw [ht rest hr] at e
        exact ⟨y, m, dd, hh, mi, Option.some.inj e⟩
      -- the last byte that is read: 0 or 1
      have val : ∀ b : UInt8, beVal ((v.drop 5 ++ (List.replicate (7 - v.length) 0 ++ b :: [0, 0, 0])).take 3) =
          beVal (v.drop 5) * 256 ^ (8 - v.length) + b.toNat := by
        intro b
        have hl : (v.drop 5).length = v.length - 5 := List.length_drop
        rw [List.take_append, List.take_of_length_le (by omega), hl]
        have e : (List.replicate (7 - v.length) (0 : UInt8) ++ b :: [0, 0, 0]).take (3 - (v.length - 5)) = List.replicate (7 - v.length) 0 ++ [b] := by
          rw [List.take_append, List.take_of_length_le (by rw [List.length_replicate]; omega), List.length_replicate,
            show 3 - (v.length - 5) - (7 - v.length) = 1 by omega]
          rfl
        rw [e, beVal_append, beVal_append]
        have z : ∀ k, beVal (List.replicate k (0 : UInt8)) = 0 := by
          intro k
          induction k with
          | zero => rfl
          | succ k ih => rw [List.replicate_succ', beVal_append, ih]; rfl
        rw [z]
        simp only [List.length_append, List.length_replicate, List.length_cons, List.length_nil, Nat.zero_mul, Nat.zero_add]
        rw [show 7 - v.length + 1 = 8 - v.length by omega]
        congr 1
        simp [beVal_cons, beVal_nil]
      obtain ⟨y, m, dd, hh, mi, e0⟩ := sec (List.replicate (7 - v.length) 0 ++ 0 :: [0, 0, 0]) (by simp)
      obtain ⟨y', m', dd', hh', mi', e1⟩ := sec (List.replicate (7 - v.length) 0 ++ 1 :: [0, 0, 0]) (by simp)
      rw [val] at e0 e1
      have hpow : ∃ q, 256 ^ (8 - v.length) = 256 * q := by
        refine ⟨256 ^ (7 - v.length), ?_⟩
        rw [show 8 - v.length = (7 - v.length) + 1 by omega, Nat.pow_succ, Nat.mul_comm]
      obtain ⟨q, hq⟩ := hpow
      have l0 := hlow (List.replicate (7 - v.length) 0 ++ 0 :: [0, 0, 0])
      rw [val] at l0
      rw [hq, show beVal (v.drop 5) * (256 * q) = 256 * (beVal (v.drop 5) * q) by rw [Nat.mul_left_comm]] at e0 e1 l0
      generalize beVal (v.drop 5) * q = w at e0 e1 l0
      have := fmt_sec (Nat.mod_lt _ (by decide)) (Nat.mod_lt _ (by decide)) (e0.symm.trans e1)
      simp only [UInt8.toNat_zero, UInt8.toNat_one] at this
      omega
  · rintro ⟨c, ⟨r1, r2, r3, r4, r5, r6, r7, r8, r9⟩, hc⟩
    have ha : a = 2 ^ 39 + (c.year * 13 + c.month) * 2 ^ 22 + c.day * 2 ^ 17 + c.hour * 2 ^ 12 + c.min * 2 ^ 6 + c.sec := by
      rw [← hone] at hc
      unfold datetimeNewEnc at hc
      have := congrArg beVal hc
      rw [beVal_beEnc (by omega), beVal_beEnc (by omega)] at this
      exact this
    refine ⟨fmtDateTime c.year c.month c.day c.hour c.min c.sec, fun rest hr => ?_⟩
    have hl := hlow rest
    have hrd := hread rest hr
    generalize beVal ((v.drop 5 ++ rest).take 3) = f at hl hrd
    have e1 : (a * 2 ^ 24 + f) / 2 ^ 46 % 2 ^ 17 = c.year * 13 + c.month := by omega
    have e2 : (a * 2 ^ 24 + f) / 2 ^ 41 % 2 ^ 5 = c.day := by omega
    have e3 : (a * 2 ^ 24 + f) / 2 ^ 36 % 2 ^ 5 = c.hour := by omega
    have e4 : (a * 2 ^ 24 + f) / 2 ^ 30 % 2 ^ 6 = c.min := by omega
    have e5 : (a * 2 ^ 24 + f) / 2 ^ 24 % 2 ^ 6 = c.sec := by omega
    have e6 : (c.year * 13 + c.month) / 13 = c.year := by omega
    rw [datetime_bits hrd (by omega) ⟨by omega, by rw [e1]; omega, by rw [e1]; omega, by rw [e1]; omega, by rw [e2]; omega, by rw [e3]; omega,
      by rw [e4]; omega, by rw [e5]; omega⟩, e1, e2, e3, e4, e5, e6, show c.year * 13 + c.month - c.year * 13 = c.month by omega]

example : ∃ t, ∀ rest : Bytes, 3 ≤ rest.length → parseDateTime (datetimeNewEnc ⟨2019, 2, 28, 23, 59, 58⟩ ++ rest) = some t :=
  (C95_datetime_iff _ (by decide) (by decide)).mpr ⟨⟨2019, 2, 28, 23, 59, 58⟩, by unfold Recent; decide, by decide⟩

/-- A BIT column in 5 to 7 bytes aborts the program, whatever its value. -/
theorem C95_bit_aborts (env : Env) (c : Column) (v : Bytes) (rest : Bytes) (h5 : 5 ≤ v.length) (h7 : v.length ≤ 7) (ht : c.ftype = DATA_FIXBINARY)
    (hm : c.mtype = MYSQL_TYPE_BIT) (hl : c.len = v.length) (out : Out) : decodeCell env c (.val v) rest out = .panic out := by
  have hs : sliceTo (v ++ rest) v.length = some v := by rw [slice_own _ _ _ (Nat.le_refl _), List.take_length]
  have h8 : matchReadFrom8 v = none := by rw [matchReadFrom8_eq, if_neg (by omega)]
  have hu : getUintValue v.length v = none := by
    have : v.length = 5 ∨ v.length = 6 ∨ v.length = 7 := by omega
    rcases this with h | h | h <;> rw [h] <;> simp only [getUintValue] <;> rw [h8] <;> rfl
  unfold decodeCell
  rw [ht, hm, hl]
  show (parseData env DATA_FIXBINARY MYSQL_TYPE_BIT (v ++ rest) v.length v.length c.isUnsigned c.isBinary >>= _) out = _
  rw [GoM.bind_run]
  simp only [parseData, DATA_VARCHAR, DATA_CHAR, DATA_FIXBINARY, MYSQL_TYPE_BIT, MYSQL_TYPE_TIME, MYSQL_TYPE_TIMESTAMP, MYSQL_TYPE_DATETIME,
    Nat.reduceEqDiff, if_false, if_true, hs]
  rw [GoM.lift_some_bind, hu]
  rfl

/-- **C95, exactly, for the columns of the server's types**: the decoder needs nothing but the bytes of the column if and only if the column is not a
DATETIME or BIT in 5 to 7 bytes. -/
theorem C95_column_iff (env : Env) (c : Column) (k : ColDef) (hd : Describes c k) (hs : RealSize c.mtype k.kind) :
    (∀ x : Cell, Fits k.scol x → ∃ w, ∀ rest out, 3 ≤ rest.length → ∃ c' out', decodeCell env c x rest out = .ok c' out' ∧ c'.value = w) ↔
      ¬ LooksBeyond c.mtype k.kind := by
  constructor
  · intro h hb
    obtain ⟨kind, nullable⟩ := k
    cases kind with
    | fixBinary n =>
      obtain ⟨hm, h5, h7⟩ := hb
      obtain ⟨_, ht, hlen⟩ := hd
      obtain ⟨w, h⟩ := h (.val (List.replicate n 0)) List.length_replicate
      rcases hm with hm | hm
      · have hp : ∀ rest : Bytes, 3 ≤ rest.length → ∃ a, parseDateTime (List.replicate n 0 ++ rest) = some a ∧ w = .str a := by
          intro rest hr
          obtain ⟨c', out', h1, h2⟩ := h rest [] hr
          unfold decodeCell at h1
          have h1 : (parseData env c.ftype c.mtype (List.replicate n 0 ++ rest) (List.replicate n (0 : UInt8)).length
            (getFixedLength c.ftype c.len) c.isUnsigned c.isBinary >>= fun p => pure { c with value := p.1, isBinary := p.2 } : GoM Out Column) [] =
              .ok c' out' := h1
          have ep : parseData env c.ftype c.mtype (List.replicate n 0 ++ rest) (List.replicate n (0 : UInt8)).length (getFixedLength c.ftype c.len)
              c.isUnsigned c.isBinary = parseData env DATA_FIXBINARY MYSQL_TYPE_DATETIME (List.replicate n 0 ++ rest) (List.replicate n (0 : UInt8)).length
              (getFixedLength DATA_FIXBINARY c.len) c.isUnsigned c.isBinary := by rw [ht, hm]; rfl
          rw [ep] at h1
          cases hq : parseDateTime (List.replicate n 0 ++ rest) with
          | none =>
            have : parseData env DATA_FIXBINARY MYSQL_TYPE_DATETIME (List.replicate n 0 ++ rest) (List.replicate n (0 : UInt8)).length
              (getFixedLength DATA_FIXBINARY c.len) c.isUnsigned c.isBinary [] = .panic [] := by
              simp [parseData, DATA_VARCHAR, DATA_CHAR, DATA_FIXBINARY, MYSQL_TYPE_DATETIME, MYSQL_TYPE_TIME, MYSQL_TYPE_TIMESTAMP, hq]
            rw [GoM.bind_run, this] at h1
            cases h1
          | some a =>
            rw [GoM.bind_run, C09_through_decoder env _ a hq] at h1
            cases h1
            exact ⟨a, rfl, h2.symm⟩
        obtain ⟨a, _, ha⟩ := hp [0, 0, 0] (by decide)
        obtain ⟨c, hc, e⟩ := (C95_datetime_iff (List.replicate n 0) (by rw [List.length_replicate]; exact h5) (by rw [List.length_replicate]; exact h7)).mp
          ⟨a, fun rest hr => by
            obtain ⟨a', h1, h2⟩ := hp rest hr
            rw [h1]
            rw [ha] at h2
            cases h2
            rfl⟩
        have hz : List.take 5 (List.replicate n (0 : UInt8)) = beEnc 5 0 := by
          rw [List.take_replicate, show min 5 n = 5 by omega]
          decide
        rw [hz] at e
        unfold datetimeNewEnc at e
        obtain ⟨r1, r2, r3, r4, r5, r6, r7, r8, r9⟩ := hc
        have := congrArg beVal e
        rw [beVal_beEnc (by omega), beVal_beEnc (by omega)] at this
        omega
      · obtain ⟨c', out', h1, _⟩ := h [0, 0, 0] [] (by decide)
        rw [C95_bit_aborts env c (List.replicate n 0) _ (by rw [List.length_replicate]; exact h5) (by rw [List.length_replicate]; exact h7) ht hm
          (by rw [List.length_replicate]; exact hlen)] at h1
        cases h1
    | _ => exact hb
  · intro hb x hx
    have hv : x ≠ .null → ∀ n, k.kind.storage = .fixed n → x.bytes.length = n := by
      intro h0 n hn
      unfold Fits at hx
      rw [show k.scol.storage = .fixed n from hn] at hx
      cases x with
      | null => exact absurd rfl h0
      | val v => exact hx
      | ext v => exact absurd hx.1 (by simp)
    obtain ⟨b, l, h⟩ := cell_own env c k x hd hs hb hv
    exact ⟨_, fun rest out _ => ⟨_, _, h rest out, rfl⟩⟩

/-- Rows to which the theorems apply: an INT column, a nullable VARCHAR and the hidden columns. -/
example : OwnCols (testCols goodDefs) goodDefs := by
  unfold OwnCols
  decide

/-- A page to which they apply, printed and as a free list. -/
example : OwnCols (testCols twoDefs) twoDefs ∧ Known (testTables twoDefs) (testCols twoDefs) twoDefs ∧ isCompact (twoPage (65536 - 88)) = true ∧
    (twoPage (65536 - 88)).length = 16384 ∧ Linked (twoPage (65536 - 88)) true (infimumAt true) [300, 200] ∧
    All2 (CompactRow (twoPage (65536 - 88)) twoDefs) [300, 200] [twoCells 1, twoCells 2] :=
  ⟨by unfold OwnCols; decide, two_wellformed.1, two_wellformed.2.2.1, two_wellformed.2.1, two_wellformed.2.2.2.1, two_wellformed.2.2.2.2.1⟩

/-- A REDUNDANT page to which they apply. -/
example : OwnCols (testCols staleDefs) staleDefs ∧ isCompact stalePage = false ∧ OldRow stalePage staleDefs 200 (1, staleRow) :=
  ⟨by unfold OwnCols; decide, stalePage_old, ⟨by decide, stalePage_row, Or.inl ⟨rfl, by decide⟩⟩⟩

end Verif.Props
