import Verif.Props.Records
import Verif.Props.Dict
import Verif.Proofs.Walk
import Verif.Proofs.Files
import Verif.Spec.SysFile
/-! Decoding the pages of the dictionary tables. -/

set_option linter.unusedSimpArgs false

namespace Verif
open Spec Props

/-! ## Values -/

/-- the column without its value -/
def unval (c : Column) : Column := { c with value := .nil }

/-- The columns that occur in the dictionary tables: strings, byte strings of a fixed length, unsigned numbers of eight bytes and numbers of four. -/
def SysCol (c : Column) : Prop :=
  c.mtype = 0 ∧ (c.ftype = 1 ∨ c.ftype = 4 ∧ (c.len = 0 ∨ c.len = 8) ∨ c.ftype = 6 ∧ c.len = 4)

/-- the column has a fixed length, and the bytes have it -/
def SysFit (c : Column) (b : Bytes) : Prop := c.len = 0 ∨ b.length = c.len

/-- what is known of the decoded value -/
def SysVal (c : Column) (b : Bytes) (v : Val) : Prop :=
  (c.ftype = 1 ∨ c.len = 0 → v = .str b) ∧
  (c.ftype = 4 ∧ c.len = 8 ∨ c.ftype = 6 ∧ c.isUnsigned = true → v = .uint (beVal b))

inductive SysVals : List Column → List Bytes → List Val → Prop where
  | nil : SysVals [] [] []
  | cons {c b v cs bs vs} : SysVal c b v → SysVals cs bs vs → SysVals (c :: cs) (b :: bs) (v :: vs)

theorem sysFixed {c : Column} (hc : SysCol c) : getFixedLength c.ftype c.len = c.len := by
  rcases hc with ⟨_, h | ⟨h, _⟩ | ⟨h, _⟩⟩ <;> rw [h] <;> rfl

theorem sysCell (env : Env) (c : Column) (b : Bytes) (hc : SysCol c) (hf : SysFit c b) (rest : Bytes) (out : Out) :
    ∃ v, SysVal c b v ∧ decodeCell env c (.val b) rest out = .ok { c with value := v } out := by
  have hs : sliceTo (b ++ rest) b.length = some b := by
    rw [sliceTo, if_pos (by simp), List.take_left' rfl]
  have key : ∀ v t l u, c.ftype = t → c.len = l → c.isUnsigned = u →
      parseData env t 0 (b ++ rest) b.length l u c.isBinary out = .ok (v, c.isBinary) out →
      decodeCell env c (.val b) rest out = .ok { c with value := v } out := by
    intro v t l u ht hl hu hv
    subst ht hl hu
    rw [← hc.1] at hv
    unfold decodeCell
    simp only [Cell.bytes, sysFixed hc]
    rw [GoM.bind_run, hv]
    rfl
  have hfx := sysFixed hc
  obtain ⟨hm, h⟩ := hc
  rcases h with h | ⟨h, h' | h'⟩ | ⟨h, h'⟩
  · refine ⟨.str b, ⟨fun _ => rfl, fun hh => by omega⟩, key _ _ _ _ h rfl rfl ?_⟩
    simp [parseData, DATA_VARCHAR, hs]
  · refine ⟨.str b, ⟨fun _ => rfl, fun hh => by omega⟩, key _ _ _ _ h h' rfl ?_⟩
    simp [parseData, DATA_VARCHAR, DATA_CHAR, DATA_FIXBINARY, DATA_BINARY, MYSQL_TYPE_VARCHAR, hs]
  · have hl : b.length = 8 := by rcases hf with hf | hf <;> omega
    have hg : getUintValue 8 b = some (beVal b) := by
      show matchReadFrom8 b = _
      rw [matchReadFrom8_eq, if_pos (by omega), List.take_of_length_le (by omega)]
    refine ⟨.uint (beVal b), ⟨fun hh => by omega, fun _ => rfl⟩, key _ _ _ _ h h' rfl ?_⟩
    simp [parseData, DATA_VARCHAR, DATA_CHAR, DATA_FIXBINARY, DATA_BINARY, MYSQL_TYPE_VARCHAR, hs, hg]
  · have hl : b.length = 4 := by rcases hf with hf | hf <;> omega
    have hr : matchReadFrom4 b = some (beVal b) := by
      rw [matchReadFrom4_eq, if_pos (by omega), List.take_of_length_le (by omega)]
    rcases Bool.eq_false_or_eq_true c.isUnsigned with hu | hu
    · have hg : getUintValue 4 b = some (beVal b) := hr
      refine ⟨.uint (beVal b), ⟨fun hh => by omega, fun _ => rfl⟩, key _ _ _ _ h h' hu ?_⟩
      simp [parseData, DATA_VARCHAR, DATA_CHAR, DATA_FIXBINARY, DATA_BINARY, DATA_INT, MYSQL_TYPE_DATE, MYSQL_TYPE_YEAR, hs, hg]
    · have hg : ∃ v, getIntValue 4 b = some v := by
        unfold getIntValue
        rw [hr]
        exact ⟨_, rfl⟩
      obtain ⟨v, hg⟩ := hg
      refine ⟨v, ⟨fun hh => by omega, fun hh => ?_⟩, key _ _ _ _ h h' hu ?_⟩
      · rcases hh with hh | hh
        · omega
        · rw [hu] at hh; cases hh.2
      · simp [parseData, DATA_VARCHAR, DATA_CHAR, DATA_FIXBINARY, DATA_BINARY, DATA_INT, MYSQL_TYPE_DATE, MYSQL_TYPE_YEAR, hs, hg]

theorem sysCol_unval {c k : Column} (h : unval c = k) (hk : SysCol k) : SysCol c := by rw [← h] at hk; exact hk
theorem sysFit_unval {c k : Column} {b : Bytes} (h : unval c = k) (hk : SysFit k b) : SysFit c b := by rw [← h] at hk; exact hk
theorem sysVal_unval {c k : Column} {b : Bytes} {v : Val} (h : unval c = k) (hc : SysVal c b v) : SysVal k b v := by rw [← h]; exact hc

/-- decoding a row of a dictionary table -/
theorem sysRow (env : Env) (K : List Column) (hK : ∀ k ∈ K, SysCol k) (row : List OldCell) (hf : All2 SysFit K (row.map (·.bytes)))
    (cols : List Column) (hc : cols.map unval = K) (post : Bytes) (out : Out) :
    ∃ cols', decodeRow env cols (viewOld row) post out = .ok cols' out ∧ cols'.map unval = K ∧
      SysVals K (row.map (·.bytes)) (cols'.map (·.value)) := by
  induction cols generalizing K row with
  | nil =>
    cases hc
    cases row with
    | nil => exact ⟨[], rfl, rfl, .nil⟩
    | cons x r => cases hf
  | cons c cols ih =>
    cases row with
    | nil => rw [← hc] at hf; cases hf
    | cons x row =>
      rw [List.map_cons] at hc
      subst hc
      cases hf with
      | cons h1 h2 =>
        obtain ⟨v, hv, hd⟩ := sysCell env c x.bytes (hK (unval c) (by simp)) h1 (rowData (viewOld row) ++ post) out
        obtain ⟨cols', e1, e2, e3⟩ := ih _ (fun k hk => hK k (by simp [hk])) row h2 rfl
        refine ⟨{ c with value := v } :: cols', ?_, ?_, .cons hv e3⟩
        · show (decodeCell env c (.val x.bytes) (rowData (viewOld row) ++ post) >>= fun c' =>
            decodeRow env cols (viewOld row) post >>= fun cs' => pure (c' :: cs')) out = _
          rw [GoM.bind_ok hd, GoM.bind_ok e1]
          rfl
        · rw [List.map_cons, e2]; rfl

theorem sysSizeOk {K : List Column} (hK : ∀ k ∈ K, SysCol k) {row : List OldCell} (hf : All2 SysFit K (row.map (·.bytes)))
    {cols : List Column} (hc : cols.map unval = K) : All2 (fun c (x : SCol × Cell) => SizeOk c x.2) cols (viewOld row) := by
  induction cols generalizing K row with
  | nil =>
    cases hc
    cases row with
    | nil => exact .nil
    | cons x r => cases hf
  | cons c cols ih =>
    cases row with
    | nil => rw [← hc] at hf; cases hf
    | cons x row =>
      rw [List.map_cons] at hc
      subst hc
      cases hf with
      | cons h1 h2 =>
        refine .cons (fun hg => ?_) (ih (fun k hk => hK k (by simp [hk])) h2 rfl)
        right
        have hs : SysCol c := hK (unval c) (List.mem_cons_self)
        rw [sysFixed hs]
        exact h1

/-- one record of a leaf page -/
theorem sysParseOne (env : Env) (tables : TableMap) (K : List Column) (hK : ∀ k ∈ K, SysCol k) (h3 : 3 ≤ K.length)
    (row : List OldCell) (hf : All2 SysFit K (row.map (·.bytes))) (d : Bytes) (hd : d.length = 16384) (o : Nat)
    (hat : OldRecordAt d o row) (s : PState) (hc : s.cols.map unval = K) :
    ∃ cols', parseOne env tables d false o s = .ok (some cols') ⟨cols', s.out⟩ ∧ cols'.map unval = K ∧
      SysVals K (row.map (·.bytes)) (cols'.map (·.value)) := by
  obtain ⟨w, hat, hw⟩ := hat
  obtain ⟨hb0, hb1, hb2⟩ := redundantAt_bounds hat
  have hrl : K.length = row.length := by simpa using all2_length hf
  have hcl : s.cols.length = row.length := by rw [← hrl, ← hc, List.length_map]
  have hoff := recOffsets_redundant tables row d o w s.cols hcl (by omega) (by omega) hat hw
  obtain ⟨cols', e1, e2, e3⟩ := sysRow env K hK row hf s.cols hc (d.drop (o + (oldData row).length)) s.out
  refine ⟨cols', ?_, e2, e3⟩
  have hone := parseOne_of_offsets env tables d false o s (6 + w * row.length) (viewOld row) (List.replicate (row.length - 3) 0)
    (d.drop (o + (oldData row).length)) (by rw [viewOld_length]; exact hoff) (sysSizeOk hK hf hc)
    (by intro h; have := viewOld_length row; rw [h] at this; simp at this; omega)
    (by rw [rowData_viewOld]; omega)
    (by unfold sliceFrom; rw [if_pos (by omega), hb2, rowData_viewOld])
    (by rw [rowData_viewOld, List.length_drop]; omega)
  rw [hone, e1]
  rfl

/-! ## Records that are not rows -/

theorem oldLoop_get (info : Nat → Option Nat) (conv : Nat → Nat) (n i : Nat) (offs : List Nat)
    (hi : ∀ j, i ≤ j → j < i + n → ∃ x, info j = some x) (hl : 3 + i + n ≤ offs.length) :
    ∃ r, oldLoop info conv n i offs = some r ∧ r.length = offs.length ∧
      (∀ j x, i ≤ j → j < i + n → info j = some x → r[3 + j]? = some (conv x)) ∧ ∀ j, j < 3 + i → r[j]? = offs[j]? := by
  induction n generalizing i offs with
  | zero => exact ⟨offs, rfl, rfl, fun j x h1 h2 => by omega, fun _ _ => rfl⟩
  | succ n ih =>
    obtain ⟨x, hx⟩ := hi i (by omega) (by omega)
    have hset : setIdx offs (2 + (1 + i)) (conv x) = some (offs.set (3 + i) (conv x)) := by
      unfold setIdx
      rw [if_pos (by omega), show 2 + (1 + i) = 3 + i by omega]
    obtain ⟨r, h1, h2, h3, h4⟩ := ih (i + 1) (offs.set (3 + i) (conv x)) (fun j hj1 hj2 => hi j (by omega) (by omega))
      (by rw [List.length_set]; omega)
    refine ⟨r, ?_, by rw [h2, List.length_set], ?_, ?_⟩
    · rw [oldLoop, hx]
      simp only [Option.bind_eq_bind, Option.bind_some]
      rw [hset]
      exact h1
    · intro j y hj1 hj2 hy
      by_cases hj : j = i
      · subst hj
        rw [hx] at hy
        injection hy with hy
        rw [h4 (3 + j) (by omega), List.getElem?_set, if_pos rfl, if_pos (by omega), hy]
      · exact h3 j y (by omega) (by omega) hy
    · intro j hj
      rw [h4 j (by omega), List.getElem?_set, if_neg (by omega)]

theorem oldData_length_take (row : List OldCell) (j : Nat) (hj : j < row.length) :
    (oldData (row.take (j + 1))).length = (oldData (row.take j)).length + row[j].bytes.length := by
  rw [List.take_succ_eq_append_getElem hj]
  unfold oldData
  rw [List.flatMap_append, List.length_append]
  simp

theorem oldData_length_le (row : List OldCell) (j : Nat) : (oldData (row.take j)).length ≤ (oldData row).length := by
  have : oldData row = oldData (row.take j) ++ oldData (row.drop j) := by
    unfold oldData; rw [← List.flatMap_append, List.take_append_drop]
  rw [this, List.length_append]; omega

/-- the width flag of a REDUNDANT record -/
theorem redundant_flag {d : Bytes} {o w : Nat} {row : List OldCell} (h : RedundantAt d o w row) (hd : d.length < 2 ^ 64) :
    recGet1byteOffsFlag d o = some (if w = 1 then 1 else 0) := by
  obtain ⟨pre, hd3, flag, hd2, post, hl3, hl2, hfl, hdd, ho⟩ := h
  have hole : o ≤ d.length := by rw [hdd, ho]; simp
  have hol : o = pre.length + w * row.length + 6 := by
    rw [ho]; simp [endInfos_length]; omega
  have hsub : (pre ++ endInfos w 0 row ++ hd3).length = sub64 o 3 := by
    rw [List.length_append, List.length_append, endInfos_length, hl3]
    unfold sub64; omega
  unfold recGet1byteOffsFlag recGetBitField1
  rw [read1_eq, readW_at 1 d _ (pre ++ endInfos w 0 row ++ hd3) [flag] (hd2 ++ oldData row ++ post)
    (by rw [hdd]; simp) hsub rfl]
  simp only [Option.bind_eq_bind, Option.bind_some, Option.pure_def]
  have : beVal [flag] = flag.toNat := by simp [beVal]
  rw [this]
  have hm : flag.toNat &&& 0x1 = flag.toNat % 2 ^ 1 := and_mask _ 1
  rw [hm, Nat.shiftRight_zero, ← hfl]
  rfl

/-- the end of column `j` as recorded -/
theorem redundant_end {d : Bytes} {o w : Nat} {row : List OldCell} (h : RedundantAt d o w row) (hw : 1 ≤ w)
    (hlt : (oldData row).length < 2 ^ (8 * w - 1)) (j : Nat) (hj : j < row.length) :
    ∃ n, readW w d (o - 6 - w * (j + 1)) = some ((oldData (row.take (j + 1))).length + n) ∧ (n = 0 ∨ n = 2 ^ (8 * w - 1)) ∧
      (oldData (row.take (j + 1))).length ≤ (oldData row).length := by
  obtain ⟨pre, hd3, flag, hd2, post, hl3, hl2, hfl, hdd, ho⟩ := h
  have hol : o = pre.length + w * row.length + 6 := by
    rw [ho]; simp [endInfos_length]; omega
  have hjg : row[j]? = some row[j] := List.getElem?_eq_getElem hj
  have := endInfo_read d pre (hd3 ++ [flag] ++ hd2 ++ oldData row ++ post) w row j row[j] (by rw [hdd]; simp) hjg hlt hw
  have htake := oldData_length_take row j hj
  refine ⟨if row[j].null then 2 ^ (8 * w - 1) else 0, ?_, by split <;> simp, ?_⟩
  · rw [htake, show o - 6 - w * (j + 1) = pre.length + w * row.length - w * (j + 1) by omega, this]
  · exact oldData_length_le row (j + 1)

/-- The offsets array computed for a record with fewer columns than the table has. -/
theorem short_offsets (tables : TableMap) (d : Bytes) (hd : d.length = 16384) (o : Nat) (ho : 116 < o) (row : List OldCell)
    (hat : OldRecordAt d o row) (cols : List Column) (h3 : 3 ≤ cols.length) (h10 : cols.length ≤ 10) (hrl : row.length ≤ cols.length) :
    ∃ offs, recOffsets tables d false o cols = some (some offs) ∧ offs.length = cols.length * 2 ∧
      ∀ j, j < row.length → offs[3 + j]? = some (oldData (row.take (j + 1))).length := by
  obtain ⟨w, hat, hw⟩ := hat
  obtain ⟨hb0, hb1, hb2⟩ := redundantAt_bounds hat
  have hflag := redundant_flag hat (by omega)
  have hsl : sliceFrom d o = some (d.drop o) := by unfold sliceFrom; rw [if_pos (by omega)]
  have hrec : recOffsets tables d false o cols =
      (ibRecInitOffsetsOld d o (List.replicate (cols.length * 2) 0) cols.length).map some := by
    unfold recOffsets
    rw [hsl]
    have hb : ∀ x : Option (Option (List Nat)), (some (d.drop o) >>= fun _ => x) = x := fun _ => rfl
    rw [hb, if_neg (by decide)]
    cases ibRecInitOffsetsOld d o (List.replicate (cols.length * 2) 0) cols.length <;> rfl
  have hunf : ∀ offs n, ibRecInitOffsetsOld d o offs n = (setIdx offs 2 0).bind fun a => (setIdx a 1 n).bind fun b =>
      (recGet1byteOffsFlag d o).bind fun num =>
        if num ≠ 0 then (setIdx b 2 (6 + n)).bind fun c => oldLoop (fun i => rec1GetFieldEndInfo d o i) oldConv1 n 0 c
        else (setIdx b 2 (6 + 2 * n)).bind fun c => oldLoop (fun i => rec2GetFieldEndInfo d o i) oldConv2 n 0 c :=
    fun _ _ => rfl
  have hset : ∀ (l : List Nat) i v, i < l.length → setIdx l i v = some (l.set i v) := by
    intro l i v h; unfold setIdx; rw [if_pos h]
  rw [hrec, hunf, hset _ _ _ (by simp; omega), Option.bind_some, hset _ _ _ (by simp; omega), Option.bind_some, hflag, Option.bind_some]
  rcases hw with ⟨rfl, hlen⟩ | rfl
  · rw [if_pos (by decide), hset _ _ _ (by simp; omega), Option.bind_some]
    obtain ⟨r, e1, e2, e3, e4⟩ := oldLoop_get (fun i => rec1GetFieldEndInfo d o i) oldConv1 cols.length 0
      ((((List.replicate (cols.length * 2) 0).set 2 0).set 1 cols.length).set 2 (6 + cols.length))
      (fun j _ hj => by
        refine ⟨numAt d (o - (6 + j + 1)) 1, ?_⟩
        · show read1 d (sub64 o (6 + j + 1)) = _
          rw [read1_eq, show sub64 o (6 + j + 1) = o - (6 + j + 1) by unfold sub64; omega, read_at d _ (by omega)])
      (by simp; omega)
    refine ⟨r, by rw [e1]; rfl, by rw [e2]; simp, ?_⟩
    · intro j hj
      obtain ⟨n, h1, h2, h3⟩ := redundant_end hat (by omega) (by omega) j hj
      rw [e3 j _ (by omega) (by omega) (by
        show read1 d (sub64 o (6 + j + 1)) = _
        rw [read1_eq, show sub64 o (6 + j + 1) = o - 6 - 1 * (j + 1) by unfold sub64; omega]
        exact h1), oldConv1_eq _ (by omega)]
      exact congrArg some (by omega)
  · rw [if_neg (by decide), hset _ _ _ (by simp; omega), Option.bind_some]
    obtain ⟨r, e1, e2, e3, e4⟩ := oldLoop_get (fun i => rec2GetFieldEndInfo d o i) oldConv2 cols.length 0
      ((((List.replicate (cols.length * 2) 0).set 2 0).set 1 cols.length).set 2 (6 + 2 * cols.length))
      (fun j _ hj => by
        refine ⟨numAt d (o - (6 + 2 * j + 2)) 2, ?_⟩
        · show read2 d (sub64 o (6 + 2 * j + 2)) = _
          rw [read2_eq, show sub64 o (6 + 2 * j + 2) = o - (6 + 2 * j + 2) by unfold sub64; omega, read_at d _ (by omega)])
      (by simp; omega)
    refine ⟨r, by rw [e1]; rfl, by rw [e2]; simp, ?_⟩
    · intro j hj
      obtain ⟨n, h1, h2, h3⟩ := redundant_end hat (by omega) (by omega) j hj
      rw [e3 j _ (by omega) (by omega) (by
        show read2 d (sub64 o (6 + 2 * j + 2)) = _
        rw [read2_eq, show sub64 o (6 + 2 * j + 2) = o - 6 - 2 * (j + 1) by unfold sub64; omega]
        exact h1), oldConv2_eq _ (by omega)]
      exact congrArg some (by omega)

theorem short_size (offs : List Nat) (row : List OldCell) (hl : 2 ≤ offs.length)
    (hlt : (oldData row).length < 2 ^ 16)
    (ho : ∀ j, j < row.length → offs[3 + j]? = some (oldData (row.take (j + 1))).length) (j : Nat) (hj : j < row.length) :
    recOffsNthSize offs j = some row[j].bytes.length := by
  have hle := oldData_length_le row
  have htake := oldData_length_take row j hj
  have hg : ∀ i, (offs.drop 2)[i]? = offs[2 + i]? := fun i => List.getElem?_drop
  unfold recOffsNthSize sliceFrom
  rw [if_pos hl]
  simp only [Option.bind_eq_bind, Option.bind_some]
  rw [hg, show 2 + (1 + j) = 3 + j by omega, ho j hj]
  have h1 := hle (j + 1)
  cases j with
  | zero =>
    rw [if_pos rfl]
    simp only [Option.bind_some]
    rw [mask30]
    have : (oldData (row.take 0)).length = 0 := by simp [oldData]
    exact congrArg some (by omega)
  | succ j =>
    rw [if_neg (by omega), hg, show 2 + (j + 1) = 3 + j by omega, ho j (by omega)]
    simp only [Option.bind_some]
    rw [mask30]
    unfold sub64
    exact congrArg some (by omega)

/-- The size check fails at the first column of a fixed length that the record does not have. -/
theorem checkSize_false (offs : List Nat) (sizes : Nat → Nat) (cols : List Column) (i k : Nat)
    (hs : ∀ j, i ≤ j → j ≤ i + k → recOffsNthSize offs j = some (sizes j)) (c : Column) (hc : cols[k]? = some c)
    (h0 : getFixedLength c.ftype c.len ≠ 0) (hl : c.len ≠ 0) (hn : sizes (i + k) ≠ 0)
    (hne : sizes (i + k) ≠ getFixedLength c.ftype c.len) : checkFieldSizeAux offs cols i = some false := by
  induction k generalizing cols i with
  | zero =>
    cases cols with
    | nil => simp at hc
    | cons x cols =>
      simp at hc
      subst hc
      rw [checkFieldSizeAux, if_pos h0, hs i (by omega) (by omega)]
      simp only [Option.bind_eq_bind, Option.bind_some]
      rw [if_neg (fun h => hn h.1), if_pos ⟨hl, hne⟩]
      rfl
  | succ k ih =>
    cases cols with
    | nil => simp at hc
    | cons x cols =>
      rw [List.getElem?_cons_succ] at hc
      have ih := ih cols (i + 1) (fun j h1 h2 => hs j (by omega) (by omega)) hc (by rw [show i + 1 + k = i + (k + 1) by omega]; exact hn)
        (by rw [show i + 1 + k = i + (k + 1) by omega]; exact hne)
      rw [checkFieldSizeAux, hs i (by omega) (by omega), ih]
      simp only [Option.bind_eq_bind, Option.bind_some]
      split
      · split
        · rfl
        · split <;> rfl
      · rfl

/-- one record of a page above the leaves -/
theorem sysNode (env : Env) (tables : TableMap) (key : List (Option Nat)) (d : Bytes) (hd : d.length = 16384) (o : Nat) (ho : 116 < o)
    (row : List OldCell) (hat : OldRecordAt d o row) (hn : NodePointer key row) (s : PState) (h3 : 3 ≤ s.cols.length)
    (h10 : s.cols.length ≤ 10) (c : Column) (hc : s.cols[key.length]? = some c) (h6 : getFixedLength c.ftype c.len = 6) (hl : c.len = 6) :
    parseOne env tables d false o s = .ok none s := by
  obtain ⟨cells, child, rfl, h4, hkey⟩ := hn
  have hkl : cells.length = key.length := (all2_length hkey).symm
  have hklt : key.length < s.cols.length := (List.getElem?_eq_some_iff.mp hc).1
  obtain ⟨offs, e1, e3, e4⟩ := short_offsets tables d hd o ho _ hat s.cols h3 h10 (by simp; omega)
  have hlt : (oldData (cells ++ [child])).length < 2 ^ 16 := by
    obtain ⟨w, hat, _⟩ := hat
    have := (redundantAt_bounds hat).2.1
    omega
  have hsz : ∀ j, j < (cells ++ [child]).length → recOffsNthSize offs j = some ((cells ++ [child]).getD j child).bytes.length := by
    intro j hj
    rw [short_size offs _ (by omega) hlt e4 j hj, List.getD_eq_getElem?_getD, List.getElem?_eq_getElem hj]
    rfl
  have hlast : (cells ++ [child]).getD (0 + key.length) child = child := by
    rw [List.getD_eq_getElem?_getD, List.getElem?_append_right (by omega), hkl, Nat.zero_add, Nat.sub_self]; rfl
  have hck := checkSize_false offs (fun j => ((cells ++ [child]).getD j child).bytes.length) s.cols 0 key.length
    (fun j _ hj => hsz j (by simp; omega)) c hc (by omega) (by omega) (by rw [hlast]; omega) (by rw [hlast]; omega)
  unfold parseOne checkFieldSize
  gom
  rw [e1]
  gom
  rw [hck]
  rfl

/-! ## Pages -/

/-- What connects a dictionary table with the columns the tool uses for it. -/
structure SysTable {ρ : Type} (leaf : ρ → List OldCell → Prop) (key : List (Option Nat)) (K : List Column)
    (Is : List Column → ρ → Prop) : Prop where
  cols : ∀ k ∈ K, SysCol k
  len3 : 3 ≤ K.length
  len10 : K.length ≤ 10
  trx : ∃ c, K[key.length]? = some c ∧ c.ftype = 1 ∧ c.len = 6
  fit : ∀ r row, leaf r row → All2 SysFit K (row.map (·.bytes))
  is : ∀ r row, leaf r row → ∀ cs : List Column, SysVals K (row.map (·.bytes)) (cs.map (·.value)) → Is cs r

section
variable {ρ : Type} {leaf : ρ → List OldCell → Prop} {key : List (Option Nat)} {K : List Column} {Is : List Column → ρ → Prop}

theorem sysVisit (T : SysTable leaf key K Is) (env : Env) (tables : TableMap) (d : Bytes) (hd : d.length = 16384) (os : List Nat)
    (rows : List (List OldCell)) (rs : List ρ) (hr : All2 (OldRecordAt d) os rows) (hs : All2 leaf rs rows) (s : PState)
    (hc : s.cols.map unval = K) :
    ∃ r s', visit env tables d false os s = .ok r s' ∧ s'.out = s.out ∧ s'.cols.map unval = K ∧ All2 Is r rs := by
  induction hr generalizing rs s with
  | nil => cases hs; exact ⟨[], s, rfl, rfl, hc, .nil⟩
  | @cons o row os rows h1 _ ih =>
    cases hs with
    | @cons r _ rs _ hl hs =>
      obtain ⟨cols', e1, e2, e3⟩ := sysParseOne env tables K T.cols T.len3 row (T.fit _ _ hl) d hd o h1 s hc
      obtain ⟨rr, s', f1, f2, f3, f4⟩ := ih rs hs ⟨cols', s.out⟩ e2
      refine ⟨cols' :: rr, s', ?_, f2, f3, .cons (T.is _ _ hl _ e3) f4⟩
      unfold visit
      rw [GoM.bind_ok e1]
      dsimp only
      rw [GoM.bind_ok f1]
      rfl

theorem sysPage (T : SysTable leaf key K Is) (env : Env) (tables : TableMap) (d : Bytes) (hd : d.length = 16384) (rs : List ρ)
    (hp : TreePage leaf key d rs) (s : PState) (hc : s.cols.map unval = K) :
    ∃ r s', parsePage env tables d false 0 s = .ok r s' ∧ s'.out = s.out ∧ s'.cols.map unval = K ∧ All2 Is r rs := by
  cases hp with
  | @leaf os rows _ h0 hl hr hs =>
    rw [parsePage_print env tables d 0 hd os (by rw [h0]; exact hl) s, h0]
    exact sysVisit T env tables d hd os rows rs hr hs s hc
  | @node o os row h0 hl hr hn =>
    rw [parsePage_print env tables d 0 hd _ (by rw [h0]; exact hl) s, h0]
    refine ⟨[], s, ?_, rfl, hc, .nil⟩
    have hu := hl.userAt o (by simp)
    obtain ⟨c, h1, h2, h3⟩ := T.trx
    have hlen : s.cols.length = K.length := by rw [← hc, List.length_map]
    obtain ⟨c', hc', hcc⟩ : ∃ c', s.cols[key.length]? = some c' ∧ unval c' = c := by
      rw [← hc, List.getElem?_map] at h1
      cases hg : s.cols[key.length]? with
      | none => rw [hg] at h1; cases h1
      | some c' => rw [hg] at h1; injection h1 with h1; exact ⟨c', rfl, h1⟩
    have e2 : c'.ftype = 1 := by rw [← hcc] at h2; exact h2
    have e3 : c'.len = 6 := by rw [← hcc] at h3; exact h3
    have := sysNode env tables key d hd o (by unfold UserAt at hu; simp [supremumAt] at hu; omega) row hr hn s
      (by rw [hlen]; exact T.len3) (by rw [hlen]; exact T.len10) c' hc' (by rw [e2, e3]; rfl) e3
    unfold visit
    rw [GoM.bind_ok this]
    rfl

theorem sysPages (T : SysTable leaf key K Is) (env : Env) (tables : TableMap) (ds : List Bytes) (hd : ∀ d ∈ ds, d.length = 16384)
    (rss : List (List ρ)) (hp : All2 (TreePage leaf key) ds rss) (s : PState) (hc : s.cols.map unval = K) :
    ∃ r s', parseDictPages env tables (ds.map entryOf) s = .ok r s' ∧ s'.out = s.out ∧ All2 Is r rss.flatten := by
  induction hp generalizing s with
  | nil => exact ⟨[], s, rfl, rfl, .nil⟩
  | @cons d rs ds rss h1 _ ih =>
    obtain ⟨r, s1, e1, e2, e3, e4⟩ := sysPage T env tables d (hd d (by simp)) rs h1 s hc
    obtain ⟨r', s2, f1, f2, f3⟩ := ih (fun x hx => hd x (by simp [hx])) s1 e3
    refine ⟨r ++ r', s2, ?_, by rw [f2, e2], all2_append e4 f3⟩
    rw [List.map_cons]
    unfold parseDictPages
    rw [GoM.bind_ok (show parsePage env tables (entryOf d).data false 0 s = _ from e1), GoM.bind_ok f1]
    rfl
end

end Verif
