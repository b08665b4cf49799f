import Verif.Proofs.Sql
import Verif.Model.DataPage
import Verif.Spec.Columns
import Verif.Props.Text
/-!
# C35, C36: REPLACE statements
-/

set_option linter.unusedSimpArgs false

namespace Verif.Props
open Verif Spec

/-! ## C35 -/

/-- The value of a column of the original row. -/
inductive Orig where
  | null
  | text (b : Bytes)
  | binary (b : Bytes)
  | bit (n : Nat)
  | int (i : Int)
  /-- FLOAT and DOUBLE, by their IEEE bit pattern -/
  | float (bits : Nat)
  | double (bits : Nat)
deriving Repr, DecidableEq

/-- The decoded column `c` holds this value (what the decoder returns for each kind of column is the subject of C06–C17). -/
def Holds (c : Column) : Orig → Prop
  | .null => c.value = .str (b! "NULL")
  | .text b => c.value = .str b ∧ c.isBinary = false ∧ c.mtype ≠ MYSQL_TYPE_BIT
  | .binary b => (∃ t, c.value = .str t ∧ unhex t = some b) ∧ c.isBinary = true ∧ c.mtype ≠ MYSQL_TYPE_BIT
  | .bit n => c.value = .uint n ∧ c.isBinary = false ∧ c.mtype = MYSQL_TYPE_BIT
  | .int i => (c.value = .int i ∨ ∃ n, c.value = .uint n ∧ i = n) ∧ c.isBinary = false ∧ c.mtype ≠ MYSQL_TYPE_BIT
  | .float bits => c.value = .f32 bits ∧ c.isBinary = false ∧ c.mtype ≠ MYSQL_TYPE_BIT
  | .double bits => c.value = .f64 bits ∧ c.isBinary = false ∧ c.mtype ≠ MYSQL_TYPE_BIT

/-- The value of an SQL expression is the original value.  Integers are written as quoted decimal numerals without leading zeros; floating
point numbers as Go prints them. -/
def Denotes (ff : FloatFmt) : SqlVal → Orig → Prop
  | .null, .null => True
  | .bytes x, .text b => x = b
  | .bytes x, .binary b => x = b
  | .bits m, .bit n => m = n
  | .bytes x, .int i => Numeral x i
  | .bytes x, .float bits => x = ff.f32 bits
  | .bytes x, .double bits => x = ff.f64 bits
  | _, _ => False

/-- The columns InnoDB adds to a table. -/
def internalNames : List Bytes := [b! "DB_ROW_ID", b! "DB_TRX_ID", b! "DB_ROLL_PTR"]

/-- the values of the user's columns -/
def userValues : List Column → List Orig → List Orig
  | c :: cs, o :: os => if c.name ∈ internalNames then userValues cs os else o :: userValues cs os
  | _, _ => []

/-- The full claim of C35. -/
def C35_statement : Prop :=
  ∀ (ff : FloatFmt) (db table : Bytes) (cols : List Column) (origs : List Orig), All2 Holds cols origs →
    ∃ vs, readReplace (replaceStmt ff db table cols) = some ⟨db, table, vs⟩ ∧
      All2 (Denotes ff) vs (userValues cols origs)

/-- What the code prints correctly: everything but the strings `NULL` and `0001-01-01T00:00:00Z`, BIT values above 1 and
NULL in a BIT column. -/
def Restorable (ff : FloatFmt) (c : Column) : Orig → Prop
  | .null => c.mtype ≠ MYSQL_TYPE_BIT
  | .text b => b ≠ b! "NULL" ∧ b ≠ b! "0001-01-01T00:00:00Z"
  | .bit n => n < 2
  | .float bits => ff.f32 bits ≠ b! "0001-01-01T00:00:00Z"
  | .double bits => ff.f64 bits ≠ b! "0001-01-01T00:00:00Z"
  | _ => True

/-- The text is read as these tokens if a comma or a closing parenthesis follows. -/
def Reads (text : Bytes) (toks : List Tok) : Prop :=
  ∀ rest, (rest.head? = some 44 ∨ rest.head? = some 41) → lex (text ++ rest) = (lex rest).map (toks ++ ·)

theorem reads_quoted (s : Bytes) (hs : s ≠ b! "0001-01-01T00:00:00Z") :
    Reads (b! "'" ++ escapeValue s ++ b! "'") [.str s] := by
  intro rest hr
  have h39 : rest.head? ≠ some 39 := by rintro h; rw [h] at hr; revert hr; decide
  have := lex_str s rest h39
  rw [escapeValue_ne hs]
  show lex (39 :: ((s.flatMap escByte ++ [39]) ++ rest)) = _
  rw [List.append_assoc]
  exact this

theorem reads_null : Reads (b! "NULL") [.word (b! "null")] := by
  intro rest hr
  refine lex_word 78 (b! "ULL") rest (by decide) (fun h => by cases h) ?_
  intro x hx
  rw [hx] at hr
  rcases hr with h | h <;> cases h <;> decide

theorem reads_unhex {text : Bytes} {t : Tok} (h : Reads text [t]) :
    Reads (b! "unhex(" ++ text ++ b! ")") [.word (b! "unhex"), .sym 40, t, .sym 41] := by
  intro rest hr
  have h1 : lex (117 :: (b! "nhex" ++ (40 :: (text ++ 41 :: rest)))) = _ :=
    lex_word 117 (b! "nhex") _ (by decide) (fun h => by cases h) (by
      intro x hx
      cases hx; decide)
  rw [lex_sym 40 _ (by decide), h _ (Or.inr rfl), lex_sym 41 _ (by decide)] at h1
  have e : (b! "unhex(" ++ text ++ b! ")") ++ rest = 117 :: (b! "nhex" ++ (40 :: (text ++ 41 :: rest))) := by
    simp
  rw [e, h1]
  simp only [Option.map_map]
  rfl

theorem dec_head (n : Nat) : (dec n).head? ≠ some 45 := by
  intro h
  have := dec_digits n 45 (List.mem_of_mem_head? h)
  revert this; decide

theorem intVal_decInt (i : Int) : intVal (decInt i) = some i := by
  unfold decInt
  by_cases h : i < 0
  · rw [if_pos h]
    show (if dec i.natAbs = [] then none else (decVal (dec i.natAbs)).map fun n => -(n : Int)) = _
    rw [if_neg (dec_ne_nil _), decVal_dec]
    show some (-((i.natAbs : Nat) : Int)) = _
    congr 1; omega
  · rw [if_neg h]
    have hh := dec_head i.natAbs
    have hn := dec_ne_nil i.natAbs
    have hd := decVal_dec i.natAbs
    generalize dec i.natAbs = t at *
    unfold intVal
    split
    · simp at hh
    · rw [if_neg hn, hd]
      show some ((i.natAbs : Nat) : Int) = _
      congr 1; omega

theorem head_append {α : Type} {a : List α} (b : List α) (h : a ≠ []) : (a ++ b).head? = a.head? := by
  cases a with
  | nil => exact absurd rfl h
  | cons _ _ => rfl

theorem dec_plain (n : Nat) : dec n = [48] ∨ (dec n).head? ≠ some 48 := by
  induction n using Nat.strongRecOn with
  | _ n ih =>
    rw [dec_eq]
    split
    · next h =>
      by_cases h0 : n = 0
      · subst h0; exact .inl rfl
      · refine .inr fun e => ?_
        have := congrArg UInt8.toNat (Option.some.inj e)
        rw [digit_toNat h] at this
        exact h0 (by simpa using this)
    · next h =>
      refine .inr fun e => ?_
      have hne := dec_ne_nil (n / 10)
      have hv := decVal_dec (n / 10)
      rcases ih (n / 10) (by omega) with h1 | h1
      · rw [h1] at hv
        have : some 0 = some (n / 10) := hv
        injection this
        omega
      · rw [head_append _ hne] at e
        exact h1 e

theorem numeral_decInt (i : Int) : Numeral (decInt i) i := by
  refine ⟨intVal_decInt i, ?_⟩
  unfold decInt
  split
  · next h =>
    refine .inr ⟨by simp, fun _ => ?_⟩
    have hv := decVal_dec i.natAbs
    rcases dec_plain i.natAbs with h1 | h1
    · rw [h1] at hv
      have : some 0 = some i.natAbs := hv
      injection this
      omega
    · exact h1
  · rcases dec_plain i.natAbs with h1 | h1
    · exact .inl h1
    · exact .inr ⟨h1, fun e => absurd e (dec_head _)⟩

theorem numeral_dec (n : Nat) : Numeral (dec n) n := by
  have := numeral_decInt n
  unfold decInt at this
  rwa [if_neg (by omega)] at this

/-- A number has one numeral. -/
theorem plain_dec {b : Bytes} {n : Nat} (hb : b ≠ []) (hv : decVal b = some n) (hp : b = [48] ∨ b.head? ≠ some 48) : b = dec n := by
  generalize hl : b.length = l
  induction l generalizing b n with
  | zero => exact absurd (List.length_eq_zero_iff.mp hl) hb
  | succ l ih =>
    obtain ⟨c, d, rfl⟩ : ∃ c d, b = c ++ [d] := ⟨_, _, (List.dropLast_concat_getLast hb).symm⟩
    have hd : ∃ k, k < 10 ∧ d = UInt8.ofNat (48 + k) := by
      unfold decVal at hv
      rw [List.foldl_append, List.foldl_cons, List.foldl_nil] at hv
      generalize List.foldl _ (some 0) c = a at hv
      cases a with
      | none => cases hv
      | some a =>
        rw [Option.bind_some] at hv
        split at hv
        · refine ⟨d.toNat - 48, by omega, ?_⟩
          rw [show 48 + (d.toNat - 48) = d.toNat by omega, UInt8.ofNat_toNat]
        · cases hv
    obtain ⟨k, hk, rfl⟩ := hd
    rw [decVal_append_digit _ _ hk] at hv
    cases hm : decVal c with
    | none => rw [hm] at hv; cases hv
    | some m =>
      rw [hm] at hv
      have e : m * 10 + k = n := Option.some.inj hv
      by_cases hc : c = []
      · subst hc
        have : some 0 = some m := hm
        injection this with this
        subst this
        rw [dec_eq, if_pos (by omega), ← e]
        simp
      · have hh : c.head? ≠ some 48 := by
          rcases hp with h | h
          · cases c with
            | nil => exact absurd rfl hc
            | cons x c => simp at h
          · rwa [head_append _ hc] at h
        have hcm := ih hc hm (.inr hh) (by simpa using hl)
        have hm0 : m ≠ 0 := by
          rintro rfl
          rw [hcm] at hh
          exact hh rfl
        rw [dec_eq n, if_neg (by omega), show n / 10 = m by omega, ← hcm, show n % 10 = k by omega]

theorem numeral_unique {x : Bytes} {n : Nat} (h : Numeral x n) : x = dec n := by
  obtain ⟨h1, h2⟩ := h
  unfold intVal at h1
  split at h1
  · next t =>
    split at h1
    · cases h1
    · cases hv : decVal t with
      | none => rw [hv] at h1; cases h1
      | some m =>
        rw [hv] at h1
        have e : -(m : Int) = n := Option.some.inj h1
        have hm : m = 0 := by omega
        subst hm
        rcases h2 with h2 | h2
        · simp at h2
        · have ht : t ≠ [] := by assumption
          have := plain_dec ht hv (.inr (h2.2 rfl))
          exact absurd (show t.head? = some 48 by rw [this]; rfl) (h2.2 rfl)
  · split at h1
    · cases h1
    · next ht =>
      cases hv : decVal x with
      | none => rw [hv] at h1; cases h1
      | some m =>
        rw [hv] at h1
        have e : (m : Int) = n := Option.some.inj h1
        have hm : m = n := by omega
        subst hm
        exact plain_dec ht hv (h2.imp_right (·.1))

theorem dec_no_time (n : Nat) : dec n ≠ b! "0001-01-01T00:00:00Z" := by
  intro h
  have := dec_digits n 84 (by rw [h]; decide)
  revert this; decide

theorem decInt_no_time (i : Int) : decInt i ≠ b! "0001-01-01T00:00:00Z" := by
  unfold decInt
  by_cases h : i < 0
  · rw [if_pos h]; intro h'; cases h'
  · rw [if_neg h]; exact dec_no_time _

theorem vt_plain (ff : FloatFmt) {c : Column} (hm : c.mtype ≠ MYSQL_TYPE_BIT) (hb : c.isBinary = false)
    (hv : c.value ≠ .nil ∧ c.value ≠ .str (b! "NULL")) :
    valueText ff c = b! "'" ++ escapeValue (fmtV ff c.value) ++ b! "'" := by
  unfold valueText
  rw [if_neg hm, hb, if_pos hv]
  simp

theorem vt_bit (ff : FloatFmt) {c : Column} (hm : c.mtype = MYSQL_TYPE_BIT) (hb : c.isBinary = false)
    (hv : c.value ≠ .nil ∧ c.value ≠ .str (b! "NULL")) :
    valueText ff c = b! "b'" ++ escapeValue (fmtV ff c.value) ++ b! "'" := by
  unfold valueText
  rw [if_pos hm, hb, if_pos hv]
  simp

theorem vt_binary (ff : FloatFmt) {c : Column} (hm : c.mtype ≠ MYSQL_TYPE_BIT) (hb : c.isBinary = true)
    (hv : c.value ≠ .nil ∧ c.value ≠ .str (b! "NULL")) :
    valueText ff c = b! "unhex(" ++ (b! "'" ++ escapeValue (fmtV ff c.value) ++ b! "'") ++ b! ")" := by
  unfold valueText
  rw [if_neg hm, hb, if_pos hv]
  simp

theorem vt_null (ff : FloatFmt) {c : Column} (hm : c.mtype ≠ MYSQL_TYPE_BIT) (hv : c.value = .str (b! "NULL")) :
    valueText ff c = if c.isBinary then b! "unhex(" ++ b! "NULL" ++ b! ")" else b! "NULL" := by
  unfold valueText
  rw [if_neg hm, hv]
  cases c.isBinary <;> rfl

theorem valueText_user (ff : FloatFmt) (c : Column) (o : Orig) (h : Holds c o) (hr : Restorable ff c o) :
    ∃ toks v, Reads (valueText ff c) toks ∧ toks ≠ [] ∧ .sym 44 ∉ toks ∧ evalExpr toks = some v ∧ Denotes ff v o := by
  cases o with
  | null =>
    rw [vt_null ff hr h]
    cases hb : c.isBinary with
    | false =>
      exact ⟨[.word (b! "null")], .null, by simpa using reads_null, by decide, by decide, by decide, trivial⟩
    | true =>
      refine ⟨_, .null, reads_unhex reads_null, by decide, by decide, by decide, trivial⟩
  | text b =>
    obtain ⟨hv, hb, hm⟩ := h
    obtain ⟨h1, h2⟩ := hr
    rw [vt_plain ff hm hb (by rw [hv]; simpa using h1), hv]
    exact ⟨[.str b], .bytes b, reads_quoted b h2, by simp, by simp, rfl, rfl⟩
  | binary b =>
    obtain ⟨⟨t, hv, ht⟩, hb, hm⟩ := h
    have h1 : t ≠ b! "NULL" := by rintro rfl; cases ht
    have h2 : t ≠ b! "0001-01-01T00:00:00Z" := by rintro rfl; cases ht
    rw [vt_binary ff hm hb (by rw [hv]; simpa using h1), hv]
    refine ⟨_, .bytes b, reads_unhex (reads_quoted t h2), by simp, by simp, ?_, rfl⟩
    show (match unhex t with | some b => some (SqlVal.bytes b) | none => some .null) = _
    rw [ht]
  | bit n =>
    obtain ⟨hv, hb, hm⟩ := h
    have hn : n = 0 ∨ n = 1 := by have : n < 2 := hr; omega
    rw [vt_bit ff hm hb (by rw [hv]; simp), hv]
    refine ⟨[.bits n], .bits n, ?_, by simp, by simp, rfl, rfl⟩
    intro rest hr
    rcases hn with rfl | rfl
    · have : lex (98 :: 39 :: 48 :: 39 :: rest) = (lex rest).map (.bits 0 :: ·) :=
        lex_step rfl (by rfl) (by simp; omega)
      exact this
    · have : lex (98 :: 39 :: 49 :: 39 :: rest) = (lex rest).map (.bits 1 :: ·) :=
        lex_step rfl (by rfl) (by simp; omega)
      exact this
  | int i =>
    obtain ⟨hv, hb, hm⟩ := h
    rw [vt_plain ff hm hb (by rcases hv with hv | ⟨n, hv, _⟩ <;> rw [hv] <;> simp)]
    rcases hv with hv | ⟨n, hv, rfl⟩
    · rw [hv]
      exact ⟨[.str (decInt i)], .bytes (decInt i), reads_quoted _ (decInt_no_time i), by simp, by simp, rfl,
        numeral_decInt i⟩
    · rw [hv]
      have : Numeral (dec n) (n : Int) := numeral_dec n
      exact ⟨[.str (dec n)], .bytes (dec n), reads_quoted _ (dec_no_time n), by simp, by simp, rfl, this⟩
  | float bits =>
    obtain ⟨hv, hb, hm⟩ := h
    rw [vt_plain ff hm hb (by rw [hv]; simp), hv]
    exact ⟨[.str (ff.f32 bits)], .bytes _, reads_quoted _ hr, by simp, by simp, rfl, rfl⟩
  | double bits =>
    obtain ⟨hv, hb, hm⟩ := h
    rw [vt_plain ff hm hb (by rw [hv]; simp), hv]
    exact ⟨[.str (ff.f64 bits)], .bytes _, reads_quoted _ hr, by simp, by simp, rfl, rfl⟩

theorem isInternal_iff (name : Bytes) : isInternal name = true ↔ name ∈ internalNames := by
  unfold isInternal internalNames
  simp [or_assoc]

/-- the texts joined by commas -/
def joinTexts : List Bytes → Bytes
  | [] => []
  | [t] => t
  | t :: ts => t ++ b! "," ++ joinTexts ts

theorem valuesText_eq (ff : FloatFmt) (cols : List Column) (first : Bool) :
    valuesText ff first cols =
      let texts := (cols.filter fun c => decide (c.name ∉ internalNames)).map (valueText ff)
      if first ∨ texts = [] then joinTexts texts else b! "," ++ joinTexts texts := by
  induction cols generalizing first with
  | nil => cases first <;> rfl
  | cons c cs ih =>
    unfold valuesText
    by_cases h : c.name ∈ internalNames
    · rw [if_pos ((isInternal_iff _).mpr h), ih, List.filter_cons_of_neg (by simpa using h)]
    · rw [if_neg (fun hh => h ((isInternal_iff _).mp hh)), ih, List.filter_cons_of_pos (by simpa using h)]
      rw [List.map_cons]
      dsimp only
      generalize (cs.filter fun c => decide (c.name ∉ internalNames)).map (valueText ff) = ts
      cases ts <;> cases first <;> simp [joinTexts]

theorem stmt_eq (ff : FloatFmt) (db table : Bytes) (cols : List Column) :
    replaceStmt ff db table cols = b! "replace into `" ++ db ++ b! "`.`" ++ table ++ b! "` values (" ++
      joinTexts ((cols.filter fun c => decide (c.name ∉ internalNames)).map (valueText ff)) ++ b! ");" := by
  unfold replaceStmt
  rw [valuesText_eq]
  simp

theorem reads_join {texts : List Bytes} {toks : List (List Tok)} (h : All2 Reads texts toks) (rest : Bytes)
    (hr : rest.head? = some 41) : lex (joinTexts texts ++ rest) = (lex rest).map (joinToks toks ++ ·) := by
  induction h with
  | nil => show lex rest = (lex rest).map ([] ++ ·); simp
  | @cons t k ts ks h1 h2 ih =>
    cases h2 with
    | nil => exact h1 rest (Or.inr hr)
    | @cons t' k' ts ks h3 h4 =>
      show lex ((t ++ b! "," ++ joinTexts (t' :: ts)) ++ rest) = _
      rw [List.append_assoc, List.append_assoc, h1 _ (Or.inl rfl)]
      show (lex (44 :: (joinTexts (t' :: ts) ++ rest))).map _ = _
      rw [lex_sym 44 _ (by decide), ih, joinToks_cons]
      simp only [Option.map_map]
      congr 1
      funext x
      simp

theorem lex_head (db table rest : Bytes) (hdb : 96 ∉ db) (ht : 96 ∉ table) :
    lex (b! "replace into `" ++ db ++ b! "`.`" ++ table ++ b! "` values (" ++ rest) =
      (lex rest).map ([.word (b! "replace"), .word (b! "into"), .ident db, .sym 46, .ident table, .word (b! "values"),
        .sym 40] ++ ·) := by
  have hsp : ∀ x, (32 :: ([] : Bytes)).head? = some x → wordChar x = false ∧ x ≠ 39 := by decide
  have e : b! "replace into `" ++ db ++ b! "`.`" ++ table ++ b! "` values (" ++ rest =
      114 :: (b! "eplace" ++ 32 :: (105 :: (b! "nto" ++ 32 :: 96 :: (db ++ 96 :: (46 :: 96 :: (table ++ 96 ::
        (32 :: (118 :: (b! "alues" ++ 32 :: 40 :: rest)))))))) ) := by simp
  rw [e, lex_word _ _ _ (by decide) (fun h => by cases h) (by intro x hx; cases hx; decide), lex_space,
    lex_word _ _ _ (by decide) (fun h => by cases h) (by intro x hx; cases hx; decide), lex_space,
    lex_ident db _ hdb (by simp), lex_sym 46 _ (by decide), lex_ident table _ ht (by simp), lex_space,
    lex_word _ _ _ (by decide) (fun h => by cases h) (by intro x hx; cases hx; decide), lex_space, lex_sym 40 _ (by decide)]
  simp only [Option.map_map]
  rfl

theorem evalList_join (gs : List (List Tok)) (vs : List SqlVal) (hne : ∀ g ∈ gs, g ≠ []) (hc : ∀ g ∈ gs, .sym 44 ∉ g)
    (h : All2 (fun g v => evalExpr g = some v) gs vs) : evalList (joinToks gs) = some vs := by
  unfold evalList
  cases gs with
  | nil => cases h; rfl
  | cons g gs =>
    rw [if_neg, commaGroups_join g gs hc]
    · clear hne hc
      generalize g :: gs = l at h
      induction h with
      | nil => rfl
      | cons h1 _ ih => simp [List.mapM_cons, h1, ih]
    · cases gs with
      | nil => exact hne g (by simp)
      | cons g' gs => rw [joinToks_cons]; simp

/-- **C35 (partial).** The statement printed for a row names the database and table and lists the values of the user's
columns in order, whatever the values of the internal columns are.  Missing, because the code prints them differently: the
strings `NULL` (read back as NULL) and `0001-01-01T00:00:00Z` (read back as the empty string), BIT values above 1 and NULL in
a BIT column, and names that contain a backtick (`C35_false` and the theorems after it). -/
theorem C35_replace_partial (ff : FloatFmt) (db table : Bytes) (cols : List Column) (origs : List Orig)
    (hdb : 96 ∉ db) (ht : 96 ∉ table)
    (h : All2 (fun c o => c.name ∉ internalNames → Holds c o ∧ Restorable ff c o) cols origs) :
    ∃ vs, readReplace (replaceStmt ff db table cols) = some ⟨db, table, vs⟩ ∧
      All2 (Denotes ff) vs (userValues cols origs) := by
  have key : ∃ toks vs, All2 Reads ((cols.filter fun c => decide (c.name ∉ internalNames)).map (valueText ff)) toks ∧
      (∀ g ∈ toks, g ≠ []) ∧ (∀ g ∈ toks, .sym 44 ∉ g) ∧ All2 (fun g v => evalExpr g = some v) toks vs ∧
      All2 (Denotes ff) vs (userValues cols origs) := by
    induction h with
    | nil => exact ⟨[], [], .nil, by simp, by simp, .nil, .nil⟩
    | @cons c o cs os h1 h2 ih =>
      obtain ⟨toks, vs, i1, i2, i3, i4, i5⟩ := ih
      unfold userValues
      by_cases hn : c.name ∈ internalNames
      · rw [if_pos hn, List.filter_cons_of_neg (by simpa using hn)]
        exact ⟨toks, vs, i1, i2, i3, i4, i5⟩
      · rw [if_neg hn, List.filter_cons_of_pos (by simpa using hn)]
        obtain ⟨h1, h1'⟩ := h1 hn
        obtain ⟨ts, v, j1, j2, j3, j4, j5⟩ := valueText_user ff c o h1 h1'
        refine ⟨ts :: toks, v :: vs, .cons j1 i1, ?_, ?_, .cons j4 i4, .cons j5 i5⟩
        · intro g hg
          rcases List.mem_cons.mp hg with rfl | hg
          · exact j2
          · exact i2 g hg
        · intro g hg
          rcases List.mem_cons.mp hg with rfl | hg
          · exact j3
          · exact i3 g hg
  obtain ⟨toks, vs, h1, h2, h3, h4, h5⟩ := key
  refine ⟨vs, ?_, h5⟩
  unfold readReplace
  rw [stmt_eq]
  rw [List.append_assoc (b! "replace into `" ++ db ++ b! "`.`" ++ table ++ b! "` values (")]
  rw [lex_head db table _ hdb ht, reads_join h1 (b! ");") rfl]
  have : lex (b! ");") = some [.sym 41, .sym 59] := by decide
  rw [this]
  simp only [Option.map_some, Option.bind_some]
  simp only [List.cons_append, List.nil_append, parseReplace]
  rw [if_pos (by decide), List.reverse_append]
  show (evalList (joinToks toks).reverse.reverse).map _ = _
  rw [List.reverse_reverse, evalList_join toks vs h2 h3 h4]
  rfl

/-- a row with NULL, text with a quote, binary data, a BIT, a number, and two internal columns -/
example : ∃ cols origs, All2 (fun c o => c.name ∉ internalNames → Holds c o ∧ Restorable ⟨fun _ => [], fun _ => []⟩ c o) cols origs ∧
    userValues cols origs = [.null, .text (b! "it's"), .binary [0, 255], .bit 1, .int (-7)] ∧
    replaceStmt ⟨fun _ => [], fun _ => []⟩ (b! "d") (b! "t") cols =
      b! "replace into `d`.`t` values (NULL,'it\\'s',unhex('00ff'),b'1','-7');" := by
  refine ⟨[{ name := b! "a", value := .str (b! "NULL") }, { name := b! "DB_TRX_ID" }, { name := b! "DB_ROLL_PTR" },
    { name := b! "b", value := .str (b! "it's") }, { name := b! "c", value := .str (b! "00ff"), isBinary := true },
    { name := b! "d", value := .uint 1, mtype := 16 }, { name := b! "e", value := .int (-7) }],
    [.null, .null, .null, .text (b! "it's"), .binary [0, 255], .bit 1, .int (-7)], ?_, by decide, by decide⟩
  refine .cons (fun _ => ⟨rfl, by show (_ : Nat) ≠ _; decide⟩) (.cons (fun h => absurd (by decide) h) (.cons (fun h => absurd (by decide) h)
    (.cons (fun _ => ⟨⟨rfl, rfl, by decide⟩, by decide, by decide⟩)
    (.cons (fun _ => ⟨⟨⟨_, rfl, by decide⟩, rfl, by decide⟩, trivial⟩)
    (.cons (fun _ => ⟨⟨rfl, rfl, by decide⟩, by show 1 < 2; decide⟩)
    (.cons (fun _ => ⟨⟨Or.inl rfl, rfl, by decide⟩, trivial⟩) .nil))))))

/-! ### What is printed wrongly -/

def anyFmt : FloatFmt := ⟨fun _ => [], fun _ => []⟩

/-- C35 is false of the code: the string `NULL` is printed as NULL. -/
theorem C35_false : ¬ C35_statement := by
  intro h
  obtain ⟨vs, h1, h2⟩ := h anyFmt (b! "d") (b! "t") [{ name := b! "a", value := .str (b! "NULL") }] [.text (b! "NULL")]
    (.cons ⟨rfl, rfl, by decide⟩ .nil)
  have : readReplace (replaceStmt anyFmt (b! "d") (b! "t") [{ name := b! "a", value := .str (b! "NULL") }]) =
      some ⟨b! "d", b! "t", [.null]⟩ := by decide
  rw [this] at h1
  cases h1
  cases h2 with
  | cons h _ => exact h

/-- The other lost string is read back as the empty string. -/
theorem C35_zero_time : readReplace (replaceStmt anyFmt (b! "d") (b! "t")
    [{ name := b! "a", value := .str (b! "0001-01-01T00:00:00Z") }]) = some ⟨b! "d", b! "t", [.bytes []]⟩ := by decide

/-- NULL in a BIT column makes the statement invalid. -/
theorem C35_bit_null : readReplace (replaceStmt anyFmt (b! "d") (b! "t")
    [{ name := b! "a", mtype := MYSQL_TYPE_BIT, value := .str (b! "NULL") }]) = none := by decide

/-- A backtick in the name of the table makes the statement invalid. -/
theorem C35_backtick : readReplace (replaceStmt anyFmt (b! "d") (b! "t`x") []) = none := by decide

/-- the value of binary digits -/
def binVal : Nat → Bytes → Option Nat
  | a, [] => some a
  | a, c :: t => if c = 48 then binVal (2 * a) t else if c = 49 then binVal (2 * a + 1) t else none

theorem lexBits_digits (a : Nat) (ds rest : Bytes) (h : ∀ x ∈ ds, 48 ≤ x.toNat ∧ x.toNat ≤ 57) :
    lexBits a (ds ++ 39 :: rest) = (binVal a ds).map fun m => (m, rest) := by
  induction ds generalizing a with
  | nil => rfl
  | cons c t ih =>
    have ht := fun a => ih a fun x hx => h x (by simp [hx])
    unfold binVal
    rw [List.cons_append]
    by_cases h0 : c = 48
    · subst h0; rw [if_pos rfl]; exact ht _
    · by_cases h1 : c = 49
      · subst h1; rw [if_neg (by decide), if_pos rfl]; exact ht _
      · rw [if_neg h0, if_neg h1]
        have h39 : c ≠ 39 := by rintro rfl; have := h 39 (by simp); revert this; decide
        unfold lexBits
        split <;> simp_all

theorem binVal_append (a : Nat) (x y : Bytes) : binVal a (x ++ y) = (binVal a x).bind fun m => binVal m y := by
  induction x generalizing a with
  | nil => rfl
  | cons c t ih =>
    show (if c = 48 then binVal (2 * a) (t ++ y) else if c = 49 then binVal (2 * a + 1) (t ++ y) else none) =
      (if c = 48 then binVal (2 * a) t else if c = 49 then binVal (2 * a + 1) t else none).bind _
    split
    · exact ih _
    · split
      · exact ih _
      · rfl

theorem binVal_dec (n m : Nat) (h : binVal 0 (dec n) = some m) : m ≤ n ∧ (2 ≤ n → m < n) := by
  induction n using Nat.strongRecOn generalizing m with
  | ind n ih =>
    rw [dec_eq] at h
    have dig : ∀ a k m, k < 10 → binVal a [UInt8.ofNat (48 + k)] = some m → m = 2 * a + k ∧ k < 2 := by
      intro a k m hk
      have : k = 0 ∨ k = 1 ∨ k = 2 ∨ k = 3 ∨ k = 4 ∨ k = 5 ∨ k = 6 ∨ k = 7 ∨ k = 8 ∨ k = 9 := by omega
      rcases this with rfl | rfl | rfl | rfl | rfl | rfl | rfl | rfl | rfl | rfl <;> intro h <;> cases h <;> simp
    by_cases hn : n < 10
    · rw [if_pos hn] at h
      have := dig 0 n m hn h
      omega
    · rw [if_neg hn, binVal_append] at h
      cases hq : binVal 0 (dec (n / 10)) with
      | none => rw [hq] at h; cases h
      | some q =>
        rw [hq] at h
        have h1 := ih (n / 10) (by omega) q hq
        have h2 := dig q (n % 10) m (by omega) h
        omega

/-- **C35, BIT columns.** A BIT value is restored exactly if it is 0 or 1: it is printed in decimal but read in binary. -/
theorem C35_bit_iff (ff : FloatFmt) (db table name : Bytes) (n : Nat) (hdb : 96 ∉ db) (ht : 96 ∉ table)
    (hn : name ∉ internalNames) :
    (∃ vs, readReplace (replaceStmt ff db table [{ name := name, mtype := MYSQL_TYPE_BIT, value := .uint n }]) =
      some ⟨db, table, vs⟩ ∧ All2 (Denotes ff) vs [.bit n]) ↔ n < 2 := by
  constructor
  · rintro ⟨vs, h1, h2⟩
    unfold readReplace at h1
    rw [stmt_eq, List.filter_cons_of_pos (by simpa using hn), List.filter_nil, List.map_singleton,
      vt_bit ff rfl rfl (by simp)] at h1
    rw [List.append_assoc (b! "replace into `" ++ db ++ b! "`.`" ++ table ++ b! "` values ("), lex_head db table _ hdb ht] at h1
    have he : escapeValue (fmtV ff (.uint n)) = dec n := by
      show escapeValue (dec n) = _
      rw [escapeValue_ne (dec_no_time n)]
      refine flatMap_plain _ fun x hx => ?_
      have := dec_digits n x hx
      unfold escByte escRune
      repeat' rw [if_neg (by omega)]
      rfl
    rw [he] at h1
    have hl : lexOne 98 (39 :: (dec n ++ 39 :: b! ");")) =
        (binVal 0 (dec n)).map fun m => (.bits m, b! ");") := by
      have := lexBits_digits 0 (dec n) (b! ");") (dec_digits n)
      show (lexBits 0 (dec n ++ 39 :: b! ");")).map _ = _
      rw [this, Option.map_map]
      rfl
    have e : joinTexts [b! "b'" ++ dec n ++ b! "'"] ++ b! ");" = 98 :: 39 :: (dec n ++ 39 :: b! ");") := by
      simp [joinTexts]
    rw [e] at h1
    cases hb : binVal 0 (dec n) with
    | none =>
      rw [hb] at hl
      rw [lex_fail rfl hl] at h1
      cases h1
    | some m =>
      rw [hb] at hl
      rw [lex_step rfl hl (by simp)] at h1
      cases h1
      cases h2 with
      | cons h _ =>
        have hm : m = n := h
        have := binVal_dec n m hb
        omega
  · intro h
    obtain ⟨vs, h1, h2⟩ := C35_replace_partial ff db table [{ name := name, mtype := MYSQL_TYPE_BIT, value := .uint n }] [.bit n]
      hdb ht (.cons (fun _ => ⟨⟨rfl, rfl, rfl⟩, h⟩) .nil)
    refine ⟨vs, h1, ?_⟩
    unfold userValues at h2
    rwa [if_neg hn] at h2

/-! ## C36 -/

/-- The number of commas outside string literals; `none` if the text ends within a literal. -/
def commas : Bool → Bytes → Option Nat
  | false, [] => some 0
  | true, [] => none
  | false, 39 :: t => commas true t
  | false, 44 :: t => (commas false t).map (· + 1)
  | false, _ :: t => commas false t
  | true, 39 :: t => commas false t
  | true, [92] => none
  | true, 92 :: _ :: t => commas true t
  | true, _ :: t => commas true t

/-- the number of items of a list of expressions -/
def items (text : Bytes) : Option Nat := if text = [] then some 0 else (commas false text).map (· + 1)

/-- The line is a REPLACE statement for this table with `n` values. -/
def IsReplace (db table : Bytes) (n : Nat) (line : Bytes) : Prop :=
  ∃ list, line = b! "replace into `" ++ db ++ b! "`.`" ++ table ++ b! "` values (" ++ list ++ b! ");" ∧ items list = some n

/-- the user's columns -/
def userColumns (cols : List Column) : List Column := cols.filter fun c => decide (c.name ∉ internalNames)

theorem commas_plain (c : UInt8) (t : Bytes) (h1 : c ≠ 39) (h2 : c ≠ 44) : commas false (c :: t) = commas false t := by
  rw [commas.eq_def]
  split <;> simp_all

theorem commas_in (c : UInt8) (t : Bytes) (h1 : c ≠ 39) (h2 : c ≠ 92) : commas true (c :: t) = commas true t := by
  rw [commas.eq_def]
  split <;> simp_all

theorem commas_escape (s rest : Bytes) : commas true (escapeValue s ++ 39 :: rest) = commas false rest := by
  by_cases hz : s = b! "0001-01-01T00:00:00Z"
  · rw [hz, C13_zero_time]; rfl
  · rw [escapeValue_ne hz]
    clear hz
    induction s with
    | nil => rfl
    | cons b s ih =>
      rw [List.flatMap_cons, List.append_assoc]
      rcases escByte_cases b with ⟨e, h1, h2⟩ | ⟨c, e, _⟩
      · rw [e, List.singleton_append, commas_in _ _ h1 h2, ih]
      · rw [e]; exact ih

theorem commas_skip (w rest : Bytes) (h : ∀ c ∈ w, c ≠ 39 ∧ c ≠ 44) : commas false (w ++ rest) = commas false rest := by
  induction w with
  | nil => rfl
  | cons c w ih =>
    obtain ⟨h1, h2⟩ := h c (by simp)
    rw [List.cons_append, commas_plain _ _ h1 h2, ih fun x hx => h x (by simp [hx])]

theorem commas_value (ff : FloatFmt) (c : Column) (rest : Bytes) :
    commas false (valueText ff c ++ rest) = commas false rest := by
  unfold valueText
  have key : ∀ r, commas false ((if c.value ≠ .nil ∧ c.value ≠ .str (b! "NULL") then
      b! "'" ++ escapeValue (fmtV ff c.value) ++ b! "'" else b! "NULL") ++ r) = commas false r := by
    intro r
    split
    · rw [List.append_assoc, List.append_assoc]
      show commas true (escapeValue (fmtV ff c.value) ++ 39 :: r) = _
      exact commas_escape _ _
    · exact commas_skip (b! "NULL") r (by decide)
  rw [List.append_assoc, List.append_assoc, List.append_assoc, commas_skip, commas_skip, key, commas_skip]
  · split <;> decide
  · split <;> decide
  · split <;> decide

theorem valueText_ne (ff : FloatFmt) (c : Column) : valueText ff c ≠ [] := by
  unfold valueText
  intro h
  rw [List.append_eq_nil_iff, List.append_eq_nil_iff] at h
  have := h.1.2
  revert this
  split <;> simp

theorem items_join (ff : FloatFmt) (cols : List Column) : items (joinTexts (cols.map (valueText ff))) = some cols.length := by
  cases cols with
  | nil => rfl
  | cons c cs =>
    unfold items
    rw [if_neg]
    · suffices h : commas false (joinTexts ((c :: cs).map (valueText ff))) = some cs.length by rw [h]; rfl
      induction cs generalizing c with
      | nil =>
        have := commas_value ff c []
        rw [List.append_nil] at this
        exact this
      | cons d ds ih =>
        show commas false (valueText ff c ++ b! "," ++ joinTexts ((d :: ds).map (valueText ff))) = _
        rw [List.append_assoc, commas_value]
        show (commas false (joinTexts ((d :: ds).map (valueText ff)))).map (· + 1) = _
        rw [ih d]; rfl
    · cases cs with
      | nil => exact valueText_ne ff c
      | cons d ds =>
        show valueText ff c ++ b! "," ++ _ ≠ []
        simp

/-- **C36.** The statement for a row has exactly one value for each of the user's columns, whatever the columns contain. -/
theorem C36_one_value_per_column (ff : FloatFmt) (db table : Bytes) (cols : List Column) :
    IsReplace db table (userColumns cols).length (replaceStmt ff db table cols) :=
  ⟨_, stmt_eq ff db table cols, items_join ff _⟩

/-- **C36, internal columns.** Nothing of an internal column appears: the statement is the one for the user's columns alone. -/
theorem C36_no_internal (ff : FloatFmt) (db table : Bytes) (cols cols' : List Column)
    (h : userColumns cols = userColumns cols') : replaceStmt ff db table cols = replaceStmt ff db table cols' := by
  unfold userColumns at h
  rw [stmt_eq, stmt_eq, h]

/-- **C36, rows.** One line is printed for each row, in order. -/
theorem C36_one_line_per_row (ff : FloatFmt) (db table : Bytes) (rows : List (List Column)) (out : Out) :
    ∃ lines, makeReplaceIntoStatement ff rows table db out = .ok () (out ++ lines) ∧
      All2 (fun row line => IsReplace db table (userColumns row).length line ∧ line = replaceStmt ff db table row) rows lines := by
  refine ⟨rows.map (replaceStmt ff db table), rfl, ?_⟩
  induction rows with
  | nil => exact .nil
  | cons r rs ih => exact .cons ⟨C36_one_value_per_column ff db table r, rfl⟩ ih

/-- a row whose text contains commas and quotes, with an internal column between -/
example : userColumns [{ name := b! "a" }, { name := b! "DB_ROW_ID" }, { name := b! "b" }] = [{ name := b! "a" }, { name := b! "b" }] := by
  decide
example : items (b! "'a,b','it\\'s,',NULL") = some 3 := by decide

end Verif.Props
