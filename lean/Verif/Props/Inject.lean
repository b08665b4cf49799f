import Verif.Spec.Outside
import Verif.Props.Width
/-!
# C81: values stay inside their literals
-/

set_option linter.unusedSimpArgs false

namespace Verif.Props
open Verif Spec

/-! ## The statement -/

/-- what may stand for a value in a statement, as far as it is not inside a literal -/
def valueShapes : List Bytes :=
  [b! "''", b! "NULL", b! "unhex('')", b! "unhex(NULL)", b! "b''", b! "bNULL", b! "bunhex('')", b! "bunhex(NULL)"]

def commaSeparated : List Bytes → Bytes
  | [] => []
  | [t] => t
  | t :: ts => t ++ b! "," ++ commaSeparated ts

/-- The line is one statement for the table: nothing stands outside of literals and quoted names but the words of the statement with `n`
values, whatever the values are, and the line has no line break and no NUL byte. -/
def IsOneReplace (db table : Bytes) (n : Nat) (line : Bytes) : Prop :=
  b! "replace into `" ++ db ++ b! "`.`" ++ table ++ b! "` values (" <+: line ∧
  (∃ shapes : List Bytes, shapes.length = n ∧ (∀ s ∈ shapes, s ∈ valueShapes) ∧
    outside .text line = some (b! "replace into ``.`` values (" ++ commaSeparated shapes ++ b! ");")) ∧
  ∀ c ∈ line, c ∈ db ∨ c ∈ table ∨ (c ≠ 10 ∧ c ≠ 13 ∧ c ≠ 0)

/-! ## Scanning -/

theorem outside_str_esc (c : UInt8) (t : Bytes) : outside .string (92 :: c :: t) = outside .string t := by
  rw [outside.eq_def]; rfl

theorem outside_str_plain (c : UInt8) (t : Bytes) (h1 : c ≠ 92) (h2 : c ≠ 39) : outside .string (c :: t) = outside .string t := by
  rw [outside.eq_def]
  split <;> simp_all

theorem outside_str_end (t : Bytes) : outside .string (39 :: t) = (outside .text t).map (39 :: ·) := by
  rw [outside.eq_def]; rfl

theorem outside_escByte (b : UInt8) (t : Bytes) : outside .string (escByte b ++ t) = outside .string t := by
  rcases escByte_cases b with ⟨e, h1, h2⟩ | ⟨c, e, _⟩
  · rw [e]; exact outside_str_plain b t h2 h1
  · rw [e]; exact outside_str_esc c t

theorem outside_escaped (s t : Bytes) : outside .string (s.flatMap escByte ++ t) = outside .string t := by
  induction s with
  | nil => rfl
  | cons b s ih => rw [List.flatMap_cons, List.append_assoc, outside_escByte, ih]

theorem outside_value (s t : Bytes) : outside .string (escapeValue s ++ t) = outside .string t := by
  by_cases h : s = b! "0001-01-01T00:00:00Z"
  · rw [h, C13_zero_time]; rfl
  · rw [escapeValue_ne h, outside_escaped]

/-- text without quotes is kept -/
theorem outside_plain (s t : Bytes) (h : ∀ c ∈ s, c ≠ 39 ∧ c ≠ 96) : outside .text (s ++ t) = (outside .text t).map (s ++ ·) := by
  induction s with
  | nil => rw [List.nil_append]; cases outside .text t <;> rfl
  | cons c s ih =>
    have hc := h c (by simp)
    have : outside .text (c :: (s ++ t)) = (outside .text (s ++ t)).map (c :: ·) := by
      rw [outside.eq_def]
      split <;> simp_all
    rw [List.cons_append, this, ih fun x hx => h x (by simp [hx])]
    cases outside .text t <;> rfl

theorem outside_quoted (s t : Bytes) : outside .text (b! "'" ++ escapeValue s ++ b! "'" ++ t) = (outside .text t).map (b! "''" ++ ·) := by
  have : outside .text (39 :: (escapeValue s ++ (39 :: t))) = (outside .string (escapeValue s ++ (39 :: t))).map (39 :: ·) := by
    rw [outside.eq_def]; rfl
  have e : b! "'" ++ escapeValue s ++ b! "'" ++ t = 39 :: (escapeValue s ++ (39 :: t)) := by simp
  rw [e, this, outside_value, outside_str_end]
  cases outside .text t <;> rfl

theorem outside_name (s t : Bytes) (h : 96 ∉ s) : outside .name (s ++ 96 :: t) = (outside .text t).map (96 :: ·) := by
  induction s with
  | nil => rw [List.nil_append, outside.eq_def]; rfl
  | cons c s ih =>
    have hc : c ≠ 96 := fun e => h (by simp [e])
    have : outside .name (c :: (s ++ 96 :: t)) = outside .name (s ++ 96 :: t) := by
      rw [outside.eq_def]
      split <;> simp_all
    rw [List.cons_append, this, ih fun e => h (by simp [e])]

/-- a text whose characters outside of literals are `shape` -/
def Shape (text shape : Bytes) : Prop := ∀ t, outside .text (text ++ t) = (outside .text t).map (shape ++ ·)

theorem Shape.append {a b s t : Bytes} (h1 : Shape a s) (h2 : Shape b t) : Shape (a ++ b) (s ++ t) := by
  intro r
  rw [List.append_assoc, h1, h2]
  cases outside .text r <;> simp

theorem Shape.plain {s : Bytes} (h : ∀ c ∈ s, c ≠ 39 ∧ c ≠ 96) : Shape s s := fun t => outside_plain s t h

theorem Shape.quoted (s : Bytes) : Shape (b! "'" ++ escapeValue s ++ b! "'") (b! "''") := fun t => outside_quoted s t

theorem Shape.name {s : Bytes} (h : 96 ∉ s) : Shape (b! "`" ++ s ++ b! "`") (b! "``") := by
  intro t
  have : outside .text (96 :: (s ++ (96 :: t))) = (outside .name (s ++ (96 :: t))).map (96 :: ·) := by
    rw [outside.eq_def]; rfl
  have e : b! "`" ++ s ++ b! "`" ++ t = 96 :: (s ++ (96 :: t)) := by simp
  rw [e, this, outside_name s t h]
  cases outside .text t <;> rfl

theorem shape_value (ff : FloatFmt) (c : Column) : ∃ s ∈ valueShapes, Shape (valueText ff c) s := by
  unfold valueText
  have hmid : ∀ p : Prop, [Decidable p] → Shape (if p then b! "'" ++ escapeValue (fmtV ff c.value) ++ b! "'" else b! "NULL")
      (if p then b! "''" else b! "NULL") := by
    intro p _
    split
    · exact Shape.quoted _
    · exact Shape.plain (by decide)
  have hpre : ∀ p : Prop, [Decidable p] → ∀ s : Bytes, (∀ c ∈ s, c ≠ 39 ∧ c ≠ 96) → Shape (if p then s else []) (if p then s else []) := by
    intro p _ s hs
    split
    · exact Shape.plain hs
    · exact Shape.plain (by simp)
  refine ⟨_, ?_, (((hpre _ _ (by decide)).append (hpre _ _ (by decide))).append (hmid _)).append (hpre _ _ (by decide))⟩
  repeat' split
  all_goals decide

theorem shape_values (ff : FloatFmt) (cols : List Column) : ∃ shapes : List Bytes, shapes.length = cols.length ∧
    (∀ s ∈ shapes, s ∈ valueShapes) ∧ Shape (joinTexts (cols.map (valueText ff))) (commaSeparated shapes) := by
  induction cols with
  | nil => exact ⟨[], rfl, by simp, Shape.plain (s := []) (by simp)⟩
  | cons c cs ih =>
    obtain ⟨s, hs, h⟩ := shape_value ff c
    obtain ⟨shapes, h1, h2, h3⟩ := ih
    refine ⟨s :: shapes, by simp [h1], ?_, ?_⟩
    · intro x hx
      rcases List.mem_cons.mp hx with rfl | hx
      · exact hs
      · exact h2 x hx
    · cases cs with
      | nil =>
        cases shapes with
        | nil => exact h
        | cons _ _ => simp at h1
      | cons c' cs =>
        cases shapes with
        | nil => simp at h1
        | cons s' ss => exact (h.append (Shape.plain (s := b! ",") (by decide))).append h3

/-! ## Line breaks -/

/-- no line break and no NUL byte -/
def Flat (s : Bytes) : Prop := ∀ c ∈ s, c ≠ 10 ∧ c ≠ 13 ∧ c ≠ 0

instance (s : Bytes) : Decidable (Flat s) := inferInstanceAs (Decidable (∀ c ∈ s, _))

theorem Flat.append {s t : Bytes} (h1 : Flat s) (h2 : Flat t) : Flat (s ++ t) := by
  intro c hc
  rcases List.mem_append.mp hc with hc | hc
  · exact h1 c hc
  · exact h2 c hc

theorem flat_escByte (b : UInt8) : Flat (escByte b) := by
  have key : ∀ n : Nat, n < 256 → Flat (escByte (UInt8.ofNat n)) := by
    set_option maxRecDepth 20000 in decide
  have := key b.toNat b.toNat_lt
  rwa [UInt8.ofNat_toNat] at this

theorem flat_escaped (s : Bytes) : Flat (escapeValue s) := by
  by_cases h : s = b! "0001-01-01T00:00:00Z"
  · rw [h, C13_zero_time]; intro c hc; cases hc
  · rw [escapeValue_ne h]
    intro c hc
    obtain ⟨b, _, hb⟩ := List.mem_flatMap.mp hc
    exact flat_escByte b c hb

theorem flat_value (ff : FloatFmt) (c : Column) : Flat (valueText ff c) := by
  have hi : ∀ p : Prop, [Decidable p] → ∀ s t : Bytes, Flat s → Flat t → Flat (if p then s else t) := by
    intro p _ s t hs ht
    split
    · exact hs
    · exact ht
  have h0 : Flat [] := by intro c hc; cases hc
  have hq : Flat (b! "'" ++ escapeValue (fmtV ff c.value) ++ b! "'") :=
    (Flat.append (by decide) (flat_escaped _)).append (by decide)
  exact (((hi _ _ _ (by decide) h0).append (hi _ _ _ (by decide) h0)).append (hi _ _ _ hq (by decide))).append (hi _ _ _ (by decide) h0)

theorem flat_values (ff : FloatFmt) (cols : List Column) : Flat (joinTexts (cols.map (valueText ff))) := by
  induction cols with
  | nil => intro c hc; cases hc
  | cons c cs ih =>
    cases cs with
    | nil => exact flat_value ff c
    | cons c' cs => exact ((flat_value ff c).append (by decide : Flat (b! ","))).append ih

/-! ## A statement -/

theorem one_replace (ff : FloatFmt) (db table : Bytes) (cols : List Column) (hdb : 96 ∉ db) (ht : 96 ∉ table) :
    IsOneReplace db table (userColumns cols).length (replaceStmt ff db table cols) := by
  rw [stmt_eq]
  change IsOneReplace db table _ (b! "replace into `" ++ db ++ b! "`.`" ++ table ++ b! "` values (" ++
    joinTexts ((userColumns cols).map (valueText ff)) ++ b! ");")
  refine ⟨?_, ?_, ?_⟩
  · exact (List.prefix_append _ _).trans (List.prefix_append _ _)
  · obtain ⟨shapes, h1, h2, h3⟩ := shape_values ff (userColumns cols)
    refine ⟨shapes, h1, h2, ?_⟩
    have h := (((((Shape.plain (s := b! "replace into ") (by decide)).append (Shape.name hdb)).append
      (Shape.plain (s := b! ".") (by decide))).append (Shape.name ht)).append
      (Shape.plain (s := b! " values (") (by decide))).append (h3.append (Shape.plain (s := b! ");") (by decide)))
    have h := h []
    have e : (b! "replace into " ++ (b! "`" ++ db ++ b! "`") ++ b! "." ++ (b! "`" ++ table ++ b! "`") ++ b! " values (" ++
        (joinTexts ((userColumns cols).map (valueText ff)) ++ b! ");")) ++ [] =
        b! "replace into `" ++ db ++ b! "`.`" ++ table ++ b! "` values (" ++ joinTexts ((userColumns cols).map (valueText ff)) ++ b! ");" := by
      simp
    rw [e] at h
    rw [h]
    show some _ = some _
    simp
  · have hv : Flat (joinTexts ((userColumns cols).map (valueText ff)) ++ b! ");") := (flat_values ff _).append (by decide)
    intro c hc
    rw [List.append_assoc (b! "replace into `" ++ db ++ b! "`.`" ++ table ++ b! "` values (")] at hc
    rcases List.mem_append.mp hc with hc | hc
    · have k1 : Flat (b! "replace into `") := by decide
      have k2 : Flat (b! "`.`") := by decide
      have k3 : Flat (b! "` values (") := by decide
      rcases List.mem_append.mp hc with hc | hc
      · rcases List.mem_append.mp hc with hc | hc
        · rcases List.mem_append.mp hc with hc | hc
          · rcases List.mem_append.mp hc with hc | hc
            · exact .inr (.inr (k1 c hc))
            · exact .inl hc
          · exact .inr (.inr (k2 c hc))
        · exact .inr (.inl hc)
      · exact .inr (.inr (k3 c hc))
    · exact .inr (.inr (hv c hc))

/-! ## The lines of a run -/

/-- the line that the decoder prints for a DECIMAL column (see C37) -/
def decimalLine : Bytes := b! "test MYSQL_TYPE_NEWDECIMAL"

/-- nothing but such lines has been printed after `o` -/
def Noise (o : Out) (out : Out) : Prop := ∃ ls, out = o ++ ls ∧ ∀ l ∈ ls, l = decimalLine

theorem parseData_noise (env : Env) (t m : Nat) (data : Bytes) (fl fx : Nat) (u f : Bool) (o : Out) :
    Keeps (Noise o) (parseData env t m data fl fx u f) := by
  unfold parseData
  dsimp only
  repeat' first
    | exact Keeps.pure _
    | exact Keeps.lift _
    | refine Keeps.bind (Keeps.lift _) fun _ => ?_
    | refine Keeps.bind ?_ fun _ => ?_
    | (refine Keeps.ite (fun _ => ?_) (fun _ => ?_))
  all_goals
    rintro s ⟨ls, h, hl⟩
    refine ⟨ls ++ [decimalLine], ?_, ?_⟩
    · rw [← List.append_assoc, ← h]; rfl
    · intro l hm
      rcases List.mem_append.mp hm with hm | hm
      · exact hl l hm
      · exact List.mem_singleton.mp hm

theorem parseField_noise (env : Env) (d : Bytes) (offsets : List Nat) (i : Nat) (c : Column) (o : Out) :
    Keeps (Noise o) (parseField env d offsets i c) := by
  unfold parseField
  refine Keeps.bind (Keeps.lift _) fun x => ?_
  obtain ⟨data, len⟩ := x
  refine Keeps.ite (fun _ => Keeps.ite (fun _ => Keeps.pure _) (fun _ => Keeps.pure _)) (fun _ => ?_)
  exact Keeps.bind (parseData_noise env _ _ _ _ _ _ _ o) fun _ => Keeps.pure _

theorem parseRecordsLoop_noise (env : Env) (d : Bytes) (offsets : List Nat) (i : Nat) (cs : List Column) (o : Out) :
    Keeps (Noise o) (parseRecordsLoop env d offsets i cs) := by
  induction cs generalizing i with
  | nil => exact Keeps.pure _
  | cons c cs ih =>
    unfold parseRecordsLoop
    exact Keeps.bind (parseField_noise env d offsets i c o) fun _ => Keeps.bind (ih _) fun _ => Keeps.pure _

theorem parseRecords_noise (env : Env) (d : Bytes) (offsets : List Nat) (o : Out) :
    Keeps (fun s : PState => Noise o s.out) (parseRecords env d offsets) := by
  unfold parseRecords
  refine Keeps.bind Keeps.get fun s => Keeps.bind (Keeps.zoom (parseRecordsLoop_noise env d offsets 0 _ o) (fun _ h => h) (fun _ _ _ h => h)) fun _ => ?_
  exact Keeps.bind (Keeps.modify _ fun _ h => h) fun _ => Keeps.bind (Keeps.lift _) fun _ => Keeps.pure _

theorem parseOne_noise (env : Env) (tables : TableMap) (d : Bytes) (c : Bool) (x : Nat) (o : Out) :
    Keeps (fun s : PState => Noise o s.out) (parseOne env tables d c x) := by
  unfold parseOne
  refine Keeps.bind Keeps.get fun s => Keeps.bind (Keeps.lift _) fun r => ?_
  cases r with
  | none => exact Keeps.pure _
  | some offsets =>
    refine Keeps.bind (Keeps.lift _) fun b => Keeps.ite (fun _ => ?_) (fun _ => Keeps.pure _)
    exact Keeps.bind (Keeps.lift _) fun y => Keeps.bind (parseRecords_noise env y offsets o) fun _ =>
      Keeps.bind (Keeps.lift _) fun _ => Keeps.pure _

theorem walk_noise (env : Env) (tables : TableMap) (d : Bytes) (c : Bool) (fuel x : Nat) (rows : List (List Column)) (o : Out) :
    Keeps (fun s : PState => Noise o s.out) (walk env tables d c fuel x rows) := by
  induction fuel generalizing x rows with
  | zero => exact Keeps.hang
  | succ fuel ih =>
    unfold walk
    refine Keeps.ite (fun _ => ?_) (fun _ => Keeps.bind (Keeps.lift _) fun _ => Keeps.pure _)
    refine Keeps.bind (parseOne_noise env tables d c x o) fun r => ?_
    cases r with
    | none => exact Keeps.pure _
    | some cs =>
      refine Keeps.bind (Keeps.lift _) fun n => ?_
      cases n with
      | none => exact Keeps.pure _
      | some y => exact ih y _

theorem parsePage_noise (env : Env) (tables : TableMap) (d : Bytes) (recovery : Bool) (free : Nat) (o : Out) :
    Keeps (fun s : PState => Noise o s.out) (parsePage env tables d recovery free) := by
  unfold parsePage
  exact Keeps.bind (Keeps.lift _) fun _ => Keeps.bind (Keeps.lift _) fun _ => walk_noise env tables d _ _ _ _ o

/-- so far only statements with `n` values and lines of the decoder have been printed -/
def OnlySafe (db name : Bytes) (K : List Column) (n : Nat) (o : Out) (s : PState) : Prop :=
  s.cols.map (skelB true) = K ∧ ∃ lines : List Bytes, s.out = o ++ lines ∧ ∀ l ∈ lines, l = decimalLine ∨ IsOneReplace db name n l

theorem printPage_safe (env : Env) (tables : TableMap) (db name : Bytes) (recovery : Bool) (d : Bytes) (hd : d.length = 16384) (o : Out)
    (hdb : 96 ∉ db) (ht : 96 ∉ name) :
    Keeps (OnlySafe db name ((getTableColumnsFromDict tables db name).map (skelB true))
      (userColumns (getTableColumnsFromDict tables db name)).length o) (printPage env tables db name recovery (fullPage d)) := by
  rintro s ⟨hk, lines, ho, hl⟩
  have h := parsePage_noise env tables d recovery (field d PAGE_FREE) s.out s ⟨[], by simp, by simp⟩
  have hrel := page_in_file env tables db name recovery d hd s hk
  rw [printPage_full]
  generalize parsePage env tables d recovery (field d PAGE_FREE) s = r at h hrel
  generalize pageAlone env tables db name recovery d = r' at hrel
  have both : ∀ ls : List Bytes, (∀ l ∈ ls, l = decimalLine) → ∀ l ∈ lines ++ ls, l = decimalLine ∨
      IsOneReplace db name (userColumns (getTableColumnsFromDict tables db name)).length l := by
    intro ls hls l hm
    rcases List.mem_append.mp hm with hm | hm
    · exact hl l hm
    · exact .inl (hls l hm)
  obtain ⟨ls, h1, h2⟩ := h
  cases hrel with
  | @ok rows' _ s' _ hrows hst =>
    refine ⟨hst.1, (lines ++ ls) ++ rows'.map (replaceStmt env.ff db name), ?_, ?_⟩
    · show s'.out ++ _ = _
      change s'.out = s.out ++ ls at h1
      rw [h1, ho]
      simp
    · intro l hm
      rcases List.mem_append.mp hm with hm | hm
      · exact both ls h2 l hm
      · obtain ⟨row, hrow, rfl⟩ := List.mem_map.mp hm
        obtain ⟨y, _, hy⟩ := all2_mem hrows row hrow
        have := one_replace env.ff db name row hdb ht
        rw [user_length hy.1] at this
        exact .inr this
  | @panic s' _ hst => exact ⟨hst.1, lines ++ ls, by rw [← List.append_assoc, ← ho]; exact h1, both ls h2⟩
  | @hang s' _ hst => exact ⟨hst.1, lines ++ ls, by rw [← List.append_assoc, ← ho]; exact h1, both ls h2⟩

theorem pagesRun_safe (env : Env) (tables : TableMap) (db name : Bytes) (recovery : Bool) (ds : List Bytes) (hd : ∀ d ∈ ds, d.length = 16384)
    (o : Out) (hdb : 96 ∉ db) (ht : 96 ∉ name) :
    Keeps (OnlySafe db name ((getTableColumnsFromDict tables db name).map (skelB true))
      (userColumns (getTableColumnsFromDict tables db name)).length o) (pagesRun env tables db name recovery ds) := by
  induction ds with
  | nil => exact Keeps.pure _
  | cons d ds ih =>
    exact Keeps.bind (printPage_safe env tables db name recovery d (hd d (by simp)) o hdb ht) fun _ => ih fun x hx => hd x (by simp [hx])

/-- **C81.** Whatever bytes the data file consists of, and however the run ends, each line printed is one REPLACE statement for the table, with
as many values as the table has columns and no text of a value outside of a literal, or the line of the decoder for DECIMAL columns. -/
theorem C81_lines (env : Env) (file : File) (db name : Bytes) (recovery : Bool) (s : IState) (hdb : 96 ∉ db) (ht : 96 ∉ name) :
    ∃ lines : List Bytes, (parseDataPage env file db name recovery s).st.out = s.out ++ lines ∧
      ∀ line ∈ lines, line = b! "test MYSQL_TYPE_NEWDECIMAL" ∨
        IsOneReplace db name (userColumns (getTableColumnsFromDict s.tables db name)).length line := by
  cases file with
  | error e => exact ⟨[], by rw [List.append_nil]; rfl, by simp⟩
  | ok content =>
    rw [parseDataPage_run]
    obtain ⟨_, lines, h1, h2⟩ := pagesRun_safe env s.tables db name recovery (selectedPages content recovery)
      (fun d hd => selectedPages_length hd) s.out hdb ht ⟨getTableColumnsFromDict s.tables db name, s.out⟩ ⟨rfl, [], (List.append_nil _).symm, by simp⟩
    refine ⟨lines, ?_, h2⟩
    generalize pagesRun env s.tables db name recovery _ _ = r at *
    cases r <;> exact h1

/-- **C81, whole command.** The same of the command, once the dictionary has been loaded; the statements name the database and table asked for. -/
theorem C81_command (env : Env) (a : FromData) (out : Out) (s : DState) (content : Bytes)
    (h : parseDictPage env a.sysFile { out := out } = .ok none s) (hf : a.tableFile = .ok content) (hdb : 96 ∉ a.db) (ht : 96 ∉ a.table) :
    ∃ lines : List Bytes, (fromDataFile env a out).st = out ++ lines ∧
      ∀ line ∈ lines, line = b! "test MYSQL_TYPE_NEWDECIMAL" ∨
        IsOneReplace a.db a.table (userColumns (getTableColumnsFromDict s.tables a.db a.table)).length line := by
  rw [C51_every_file env a out s content h hf (a.opType == b! "RecoveryData") (by simp)]
  exact C81_lines env (.ok content) a.db a.table _ ⟨s.tables, out⟩ hdb ht

theorem shape_chars : ∀ s ∈ valueShapes, ∀ c ∈ s, c ≠ 59 ∧ c ≠ 45 ∧ c ≠ 35 ∧ c ≠ 47 := by decide

theorem shapes_chars {shapes : List Bytes} (h : ∀ s ∈ shapes, s ∈ valueShapes) :
    ∀ c ∈ commaSeparated shapes, c ≠ 59 ∧ c ≠ 45 ∧ c ≠ 35 ∧ c ≠ 47 := by
  induction shapes with
  | nil => intro c hc; cases hc
  | cons s ss ih =>
    have h1 := shape_chars s (h s (by simp))
    have ih := ih fun x hx => h x (by simp [hx])
    cases ss with
    | nil => exact h1
    | cons s' ss =>
      intro c hc
      change c ∈ s ++ b! "," ++ commaSeparated (s' :: ss) at hc
      rcases List.mem_append.mp hc with hc | hc
      · rcases List.mem_append.mp hc with hc | hc
        · exact h1 c hc
        · cases List.mem_singleton.mp hc; decide
      · exact ih c hc

/-- **C81, what it means.** Such a line has one semicolon outside of literals and quoted names, its last character, and nothing there that
begins a comment (`--`, `#`, `/*`). -/
theorem C81_no_more {db table line : Bytes} {n : Nat} (h : IsOneReplace db table n line) :
    ∃ s, outside .text line = some (s ++ b! ";") ∧ ∀ c ∈ s, c ≠ 59 ∧ c ≠ 45 ∧ c ≠ 35 ∧ c ≠ 47 := by
  obtain ⟨_, ⟨shapes, _, h2, h3⟩, _⟩ := h
  refine ⟨b! "replace into ``.`` values (" ++ commaSeparated shapes ++ b! ")", ?_, ?_⟩
  · rw [h3]; simp
  · intro c hc
    rcases List.mem_append.mp hc with hc | hc
    · rcases List.mem_append.mp hc with hc | hc
      · exact (by decide : ∀ c ∈ b! "replace into ``.`` values (", c ≠ 59 ∧ c ≠ 45 ∧ c ≠ 35 ∧ c ≠ 47) c hc
      · exact shapes_chars h2 c hc
    · cases List.mem_singleton.mp hc; decide

/-- a value that tries to end its literal stays in it -/
example : outside .text (replaceStmt anyFmt (b! "d") (b! "t") [{ name := b! "a", value := .str (b! "x\\'); drop table `t`; -- ") }]) =
    some (b! "replace into ``.`` values ('');") := by decide

/-- names without backticks, and a dictionary with columns that are printed -/
example : 96 ∉ b! "d" ∧ 96 ∉ b! "t" ∧ (userColumns (getTableColumnsFromDict twoTables (b! "d") (b! "t"))).length = 1 := by decide

end Verif.Props
