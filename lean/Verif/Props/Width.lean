import Verif.Props.Output
import Verif.Proofs.Stored
/-!
# C35, exactly, and the number of values of the printed statements
-/

set_option linter.unusedSimpArgs false

namespace Verif.Props
open Verif Spec

/-! ## One value -/

theorem reads_quoted' (s : Bytes) : Reads (b! "'" ++ escapeValue s ++ b! "'") [.str (if s = b! "0001-01-01T00:00:00Z" then [] else s)] := by
  by_cases h : s = b! "0001-01-01T00:00:00Z"
  · rw [if_pos h, h, C13_zero_time]
    intro rest hr
    have h39 : rest.head? ≠ some 39 := by rintro h; rw [h] at hr; revert hr; decide
    exact lex_str [] rest h39
  · rw [if_neg h]
    exact reads_quoted s h

/-- a call of a function -/
theorem reads_call (c : UInt8) (w : Bytes) (hw : ∀ x ∈ c :: w, wordChar x = true) (hne : w ≠ []) {text : Bytes} {t : Tok} (h : Reads text [t]) :
    Reads (c :: w ++ b! "(" ++ text ++ b! ")") [.word ((c :: w).map lower), .sym 40, t, .sym 41] := by
  intro rest hr
  have h1 : lex (c :: (w ++ (40 :: (text ++ 41 :: rest)))) = _ :=
    lex_word c w _ hw (fun h => absurd h hne) (by intro x hx; cases hx; decide)
  rw [lex_sym 40 _ (by decide), h _ (Or.inr rfl), lex_sym 41 _ (by decide)] at h1
  have e : (c :: w ++ b! "(" ++ text ++ b! ")") ++ rest = c :: (w ++ (40 :: (text ++ 41 :: rest))) := by simp
  rw [e, h1]
  simp only [Option.map_map]
  rfl

theorem reads_bnull : Reads (b! "bNULL") [.word (b! "bnull")] := by
  intro rest hr
  refine lex_word 98 (b! "NULL") rest (by decide) (fun h => by cases h) ?_
  intro x hx
  rw [hx] at hr
  rcases hr with h | h <;> cases h <;> decide

/-- a bit literal with the text of a value: read as its digits, or an error -/
theorem lexBits_escaped (s : Bytes) (a : Nat) : (∃ m, ∀ rest, lexBits a (s.flatMap escByte ++ 39 :: rest) = some (m, rest)) ∨
    ∀ rest, lexBits a (s.flatMap escByte ++ 39 :: rest) = none := by
  induction s generalizing a with
  | nil => exact .inl ⟨a, fun _ => rfl⟩
  | cons b s ih =>
    simp only [List.flatMap_cons, List.append_assoc]
    rcases escByte_cases b with ⟨e, h1, h2⟩ | ⟨c, e, _⟩
    · rw [e]
      simp only [List.singleton_append]
      by_cases h48 : b = 48
      · subst h48; exact ih _
      · by_cases h49 : b = 49
        · subst h49; exact ih _
        · refine .inr fun rest => ?_
          unfold lexBits
          split <;> simp_all
    · rw [e]
      exact .inr fun rest => rfl

/-- The text of a value is read as tokens without a comma or semicolon, which have the right value only if the value is `Restorable`; or it is an error. -/
theorem value_fate (ff : FloatFmt) (c : Column) :
    (∃ toks, Reads (valueText ff c) toks ∧ toks ≠ [] ∧ (.sym 44 ∉ toks ∧ .sym 59 ∉ toks) ∧
      ∀ v o, Holds c o → evalExpr toks = some v → Denotes ff v o → Restorable ff c o) ∨
    ∀ rest, lex (valueText ff c ++ rest) = none := by
  by_cases hv : c.value ≠ .nil ∧ c.value ≠ .str (b! "NULL")
  · by_cases hm : c.mtype = MYSQL_TYPE_BIT
    · cases hb : c.isBinary with
      | false =>
        rw [vt_bit ff hm hb hv]
        by_cases hz : fmtV ff c.value = b! "0001-01-01T00:00:00Z"
        · rw [hz, C13_zero_time]
          refine .inl ⟨[.bits 0], ?_, by simp, by simp, ?_⟩
          · intro rest hr
            have : lex (98 :: 39 :: 39 :: rest) = (lex rest).map (.bits 0 :: ·) := lex_step rfl (by rfl) (by simp; omega)
            exact this
          · intro v o ho hv' hd
            cases o with
            | null => exact absurd ho hv.2
            | bit n =>
              cases hv'
              have hd : 0 = n := hd
              show n < 2
              omega
            | text b => exact absurd hm ho.2.2
            | binary b => exact trivial
            | int i => exact trivial
            | float b => exact absurd hm ho.2.2
            | double b => exact absurd hm ho.2.2
        · rw [escapeValue_ne hz]
          have e : ∀ rest, b! "b'" ++ (fmtV ff c.value).flatMap escByte ++ b! "'" ++ rest =
              98 :: 39 :: ((fmtV ff c.value).flatMap escByte ++ 39 :: rest) := by intro rest; simp
          have one : ∀ u, lexOne 98 (39 :: u) = (lexBits 0 u).map fun r => (.bits r.1, r.2) := fun u => rfl
          rcases lexBits_escaped (fmtV ff c.value) 0 with ⟨m, h⟩ | h
          · refine .inl ⟨[.bits m], ?_, by simp, by simp, ?_⟩
            · intro rest hr
              rw [e]
              exact lex_step rfl (by rw [one, h]; rfl) (by simp; omega)
            · intro v o ho hv' hd
              cases o with
              | null => exact absurd ho hv.2
              | bit n =>
                cases hv'
                have hd : m = n := hd
                subst hd
                have hval : c.value = .uint m := ho.1
                rw [hval] at h
                have hdec : (fmtV ff (.uint m)).flatMap escByte = dec m := by
                  refine flatMap_plain _ fun x hx => ?_
                  have := dec_digits m x hx
                  unfold escByte escRune
                  repeat' rw [if_neg (by omega)]
                  rfl
                rw [hdec] at h
                have := h []
                rw [lexBits_digits 0 _ [] (dec_digits m)] at this
                cases hq : binVal 0 (dec m) with
                | none => rw [hq] at this; cases this
                | some q =>
                  rw [hq] at this
                  have hqm : q = m := by simpa using this
                  have := binVal_dec m q hq
                  show m < 2
                  omega
              | text b => exact absurd hm ho.2.2
              | binary b => exact trivial
              | int i => exact trivial
              | float b => exact absurd hm ho.2.2
              | double b => exact absurd hm ho.2.2
          · refine .inr fun rest => ?_
            rw [e]
            exact lex_fail rfl (by rw [one, h]; rfl)
      | true =>
        have e : valueText ff c = 98 :: b! "unhex" ++ b! "(" ++ (b! "'" ++ escapeValue (fmtV ff c.value) ++ b! "'") ++ b! ")" := by
          unfold valueText
          rw [if_pos hm, hb, if_pos hv]
          simp
        rw [e]
        refine .inl ⟨_, reads_call 98 (b! "unhex") (by decide) (by decide) (reads_quoted' _), by simp, by simp, ?_⟩
        intro v o _ hv'
        cases hv'
    · cases hb : c.isBinary with
      | false =>
        rw [vt_plain ff hm hb hv]
        refine .inl ⟨_, reads_quoted' _, by simp, by simp, ?_⟩
        intro v o ho hv' hd
        cases hv'
        cases o with
        | null => exact absurd ho hv.2
        | text b =>
          have hval : c.value = .str b := ho.1
          rw [hval] at hd hv
          refine ⟨fun e => hv.2 (by rw [e]), fun e => ?_⟩
          have hd : (if b = b! "0001-01-01T00:00:00Z" then [] else b) = b := hd
          rw [if_pos e, e] at hd
          cases hd
        | binary b => exact trivial
        | int i => exact trivial
        | bit n => exact absurd ho.2.2 hm
        | float b =>
          have hval : c.value = .f32 b := ho.1
          rw [hval] at hd
          intro e
          have hd : (if ff.f32 b = b! "0001-01-01T00:00:00Z" then [] else ff.f32 b) = ff.f32 b := hd
          rw [if_pos e, e] at hd
          cases hd
        | double b =>
          have hval : c.value = .f64 b := ho.1
          rw [hval] at hd
          intro e
          have hd : (if ff.f64 b = b! "0001-01-01T00:00:00Z" then [] else ff.f64 b) = ff.f64 b := hd
          rw [if_pos e, e] at hd
          cases hd
      | true =>
        rw [vt_binary ff hm hb hv]
        refine .inl ⟨_, reads_unhex (reads_quoted' _), by simp, by simp, ?_⟩
        intro v o ho hv' hd
        cases o with
        | null => exact absurd ho hv.2
        | text b => rw [ho.2.1] at hb; cases hb
        | binary b => exact trivial
        | int i => exact trivial
        | bit n => exact absurd ho.2.2 hm
        | float b => rw [ho.2.1] at hb; cases hb
        | double b => rw [ho.2.1] at hb; cases hb
  · by_cases hm : c.mtype = MYSQL_TYPE_BIT
    · cases hb : c.isBinary with
      | false =>
        have e : valueText ff c = b! "bNULL" := by
          unfold valueText
          rw [if_pos hm, hb, if_neg hv]
          simp
        rw [e]
        refine .inl ⟨_, reads_bnull, by decide, by decide, ?_⟩
        intro v o _ hv'
        cases hv'
      | true =>
        have e : valueText ff c = 98 :: b! "unhex" ++ b! "(" ++ b! "NULL" ++ b! ")" := by
          unfold valueText
          rw [if_pos hm, hb, if_neg hv]
          simp
        rw [e]
        refine .inl ⟨_, reads_call 98 (b! "unhex") (by decide) (by decide) reads_null, by simp, by simp, ?_⟩
        intro v o _ hv'
        cases hv'
    · have hnil : ∀ o v, Holds c o → v = .null → Denotes ff v o → Restorable ff c o := by
        rintro o v ho rfl hd
        cases o with
        | null => exact hm
        | text b => exact absurd hd id
        | binary b => exact trivial
        | int i => exact trivial
        | bit n => exact absurd hd id
        | float b => exact absurd hd id
        | double b => exact absurd hd id
      cases hb : c.isBinary with
      | false =>
        have e : valueText ff c = b! "NULL" := by
          unfold valueText
          rw [if_neg hm, hb, if_neg hv]
          simp
        rw [e]
        refine .inl ⟨_, reads_null, by decide, by decide, fun v o ho hv' => hnil o v ho ?_⟩
        exact (Option.some.inj hv').symm
      | true =>
        have e : valueText ff c = b! "unhex(" ++ b! "NULL" ++ b! ")" := by
          unfold valueText
          rw [if_neg hm, hb, if_neg hv]
          simp
        rw [e]
        refine .inl ⟨_, reads_unhex reads_null, by decide, by decide, fun v o ho hv' => hnil o v ho ?_⟩
        exact (Option.some.inj hv').symm

/-! ## A statement -/

theorem join_fate (ff : FloatFmt) (cols : List Column) :
    (∃ toks, All2 (fun c g => Reads (valueText ff c) g ∧ g ≠ [] ∧ (.sym 44 ∉ g ∧ .sym 59 ∉ g) ∧
      ∀ v o, Holds c o → evalExpr g = some v → Denotes ff v o → Restorable ff c o) cols toks) ∨
    ∀ rest, rest.head? = some 41 → lex (joinTexts (cols.map (valueText ff)) ++ rest) = none := by
  induction cols with
  | nil => exact .inl ⟨[], .nil⟩
  | cons c cs ih =>
    rcases value_fate ff c with ⟨g, hg⟩ | hc
    · rcases ih with ⟨gs, hgs⟩ | hs
      · exact .inl ⟨g :: gs, .cons hg hgs⟩
      · refine .inr fun rest hr => ?_
        cases cs with
        | nil =>
          exfalso
          have := hs (b! ")") rfl
          exact absurd (show lex (b! ")") = none from this) (by decide)
        | cons c' cs =>
          show lex ((valueText ff c ++ b! "," ++ joinTexts ((c' :: cs).map (valueText ff))) ++ rest) = none
          rw [List.append_assoc, List.append_assoc, hg.1 _ (Or.inl rfl)]
          show (lex (44 :: (joinTexts ((c' :: cs).map (valueText ff)) ++ rest))).map _ = none
          rw [lex_sym 44 _ (by decide), hs rest hr]
          rfl
    · refine .inr fun rest hr => ?_
      cases cs with
      | nil => exact hc rest
      | cons c' cs =>
        show lex ((valueText ff c ++ b! "," ++ joinTexts ((c' :: cs).map (valueText ff))) ++ rest) = none
        rw [List.append_assoc, List.append_assoc, hc]

theorem mapM_all2 {α β : Type} {f : α → Option β} {l : List α} {r : List β} (h : l.mapM f = some r) : All2 (fun a b => f a = some b) l r := by
  induction l generalizing r with
  | nil => cases h; exact .nil
  | cons a l ih =>
    rw [List.mapM_cons] at h
    cases hf : f a with
    | none => rw [hf] at h; cases h
    | some b =>
      rw [hf] at h
      cases hl : l.mapM f with
      | none => rw [hl] at h; cases h
      | some bs =>
        rw [hl] at h
        cases h
        exact .cons hf (ih hl)

theorem all2_back {α β : Type} {R : α → β → Prop} {xs : List α} {ys : List β} (h : All2 R xs ys) : ∀ y ∈ ys, ∃ x, R x y := by
  induction h with
  | nil => intro x hx; cases hx
  | cons h1 _ ih =>
    intro x hx
    rcases List.mem_cons.mp hx with rfl | hx
    · exact ⟨_, h1⟩
    · exact ih x hx

/-- how the values of a statement that can be read are read -/
theorem stmt_reads (ff : FloatFmt) (db table : Bytes) (cols : List Column) (hdb : 96 ∉ db) (ht : 96 ∉ table) (r : Replace)
    (h : readReplace (replaceStmt ff db table cols) = some r) : r.db = db ∧ r.table = table ∧
      All2 (fun c v => ∃ g, Reads (valueText ff c) g ∧ evalExpr g = some v ∧ ∀ o, Holds c o → Denotes ff v o → Restorable ff c o)
        (userColumns cols) r.values := by
  unfold readReplace at h
  rw [stmt_eq, List.append_assoc (b! "replace into `" ++ db ++ b! "`.`" ++ table ++ b! "` values ("), lex_head db table _ hdb ht] at h
  change (Option.map _ (lex (joinTexts ((userColumns cols).map (valueText ff)) ++ b! ");"))).bind _ = _ at h
  rcases join_fate ff (userColumns cols) with ⟨toks, ha⟩ | hf
  · have h1 : All2 Reads ((userColumns cols).map (valueText ff)) toks := by
      generalize userColumns cols = us at ha
      clear h
      induction ha with
      | nil => exact .nil
      | cons h _ ih => exact .cons h.1 ih
    rw [reads_join h1 (b! ");") rfl, show lex (b! ");") = some [.sym 41, .sym 59] by decide] at h
    simp only [Option.map_some, Option.bind_some] at h
    simp only [List.cons_append, List.nil_append, parseReplace] at h
    rw [if_pos (by decide), List.reverse_append] at h
    change (evalList (joinToks toks).reverse.reverse).map _ = _ at h
    rw [List.reverse_reverse] at h
    cases hl : evalList (joinToks toks) with
    | none => rw [hl] at h; cases h
    | some vs =>
      rw [hl] at h
      cases h
      refine ⟨rfl, rfl, ?_⟩
      have hv : All2 (fun g v => evalExpr g = some v) toks vs := by
        unfold evalList at hl
        cases toks with
        | nil => cases hl; exact .nil
        | cons g gs =>
          have hc : ∀ x ∈ g :: gs, .sym 44 ∉ x := by
            intro x hx
            obtain ⟨c, h⟩ := all2_back ha x hx
            exact h.2.2.1.1
          have hne : joinToks (g :: gs) ≠ [] := by
            cases gs with
            | nil =>
              obtain ⟨c, h⟩ := all2_back ha g (by simp)
              exact h.2.1
            | cons g' gs => rw [joinToks_cons]; simp
          rw [if_neg hne, commaGroups_join g gs hc] at hl
          exact mapM_all2 hl
      show All2 _ (userColumns cols) vs
      generalize userColumns cols = us at ha
      clear * - ha hv
      induction ha generalizing vs with
      | nil => cases hv; exact .nil
      | cons h _ ih =>
        cases hv with
        | cons h' hv => exact .cons ⟨_, h.1, h', fun o ho hd => h.2.2.2 _ o ho h' hd⟩ (ih _ hv)
  · rw [hf _ rfl] at h
    cases h

/-- what the values of a statement that can be read are -/
theorem stmt_values (ff : FloatFmt) (db table : Bytes) (cols : List Column) (hdb : 96 ∉ db) (ht : 96 ∉ table) (r : Replace)
    (h : readReplace (replaceStmt ff db table cols) = some r) : r.db = db ∧ r.table = table ∧
      All2 (fun c v => ∀ o, Holds c o → Denotes ff v o → Restorable ff c o) (userColumns cols) r.values :=
  let ⟨h1, h2, h3⟩ := stmt_reads ff db table cols hdb ht r h
  ⟨h1, h2, all2_imp (fun _ _ ⟨_, _, _, h⟩ => h) h3⟩

/-- **C36, as read.** A statement that can be read has one value for each of the user's columns. -/
theorem C36_values (ff : FloatFmt) (db table : Bytes) (cols : List Column) (hdb : 96 ∉ db) (ht : 96 ∉ table) (r : Replace)
    (h : readReplace (replaceStmt ff db table cols) = some r) : r.values.length = (userColumns cols).length :=
  (all2_length (stmt_values ff db table cols hdb ht r h).2.2).symm

/-- **C35, exactly.** The statement restores the row if and only if each of its values is `Restorable`. -/
theorem C35_iff (ff : FloatFmt) (db table : Bytes) (cols : List Column) (origs : List Orig) (hdb : 96 ∉ db) (ht : 96 ∉ table)
    (h : All2 (fun c o => c.name ∉ internalNames → Holds c o) cols origs) :
    (∃ vs, readReplace (replaceStmt ff db table cols) = some ⟨db, table, vs⟩ ∧ All2 (Denotes ff) vs (userValues cols origs)) ↔
      All2 (fun c o => c.name ∉ internalNames → Restorable ff c o) cols origs := by
  constructor
  · rintro ⟨vs, h1, h2⟩
    have h3 := (stmt_values ff db table cols hdb ht _ h1).2.2
    change All2 _ (userColumns cols) vs at h3
    clear h1
    induction h generalizing vs with
    | nil => exact .nil
    | @cons c o cs os hc _ ih =>
      unfold userValues at h2
      unfold userColumns at h3
      by_cases hn : c.name ∈ internalNames
      · rw [if_pos hn] at h2
        rw [List.filter_cons_of_neg (by simpa using hn)] at h3
        exact .cons (fun h => absurd hn h) (ih vs h2 h3)
      · rw [if_neg hn] at h2
        rw [List.filter_cons_of_pos (by simpa using hn)] at h3
        cases h2 with
        | cons h2 h2s =>
          cases h3 with
          | cons h3 h3s => exact .cons (fun _ => h3 o (hc hn) h2) (ih _ h2s h3s)
  · intro hr
    refine C35_replace_partial ff db table cols origs hdb ht ?_
    clear hdb ht
    induction h with
    | nil => exact .nil
    | cons hc _ ih =>
      cases hr with
      | cons hr hrs => exact .cons (fun hn => ⟨hc hn, hr hn⟩) (ih hrs)

/-- a row with the text NULL cannot be restored, one without can -/
example : ∃ cols origs, All2 (fun c o => c.name ∉ internalNames → Holds c o) cols origs ∧ ¬ All2 (fun c o => c.name ∉ internalNames → Restorable anyFmt c o) cols origs :=
  ⟨[{ name := b! "a", value := .str (b! "NULL") }], [.text (b! "NULL")], .cons (fun _ => ⟨rfl, rfl, by decide⟩) .nil, by
    intro h
    cases h with
    | cons h _ => exact (h (by decide)).1 rfl⟩

/-! ## The lines of a run -/

/-- so far only statements with `n` values have been printed -/
def OnlyWide (ff : FloatFmt) (db name : Bytes) (K : List Column) (o : Out) (s : PState) : Prop :=
  s.cols.map (skelB true) = K ∧ NoDecimal s.cols ∧ ∃ rows : List (List Column), s.out = o ++ rows.map (replaceStmt ff db name) ∧
    ∀ row ∈ rows, row.map (skelB true) = K

theorem printPage_wide (env : Env) (tables : TableMap) (db name : Bytes) (recovery : Bool) (d : Bytes) (hd : d.length = 16384) (o : Out) :
    Keeps (OnlyWide env.ff db name ((getTableColumnsFromDict tables db name).map (skelB true)) o)
      (printPage env tables db name recovery (fullPage d)) := by
  rintro s ⟨hk, hn, rows, ho, hl⟩
  have h := parsePage_quiet env tables d recovery (field d PAGE_FREE) s.out s ⟨rfl, hn⟩
  have hrel := page_in_file env tables db name recovery d hd s hk
  rw [printPage_full]
  generalize parsePage env tables d recovery (field d PAGE_FREE) s = r at h hrel
  generalize pageAlone env tables db name recovery d = r' at hrel
  cases hrel with
  | @ok rows' _ s' _ hrows hst =>
    refine ⟨hst.1, h.2, rows ++ rows', ?_, ?_⟩
    · show s'.out ++ _ = _
      have := h.1
      change s'.out = s.out at this
      rw [this, ho, List.map_append, List.append_assoc]
    · intro row hm
      rcases List.mem_append.mp hm with hm | hm
      · exact hl row hm
      · obtain ⟨y, _, hy⟩ := all2_mem hrows row hm
        exact hy.1
  | @panic s' _ hst => exact ⟨hst.1, h.2, rows, h.1.trans ho, hl⟩
  | @hang s' _ hst => exact ⟨hst.1, h.2, rows, h.1.trans ho, hl⟩

theorem pagesRun_wide (env : Env) (tables : TableMap) (db name : Bytes) (recovery : Bool) (ds : List Bytes) (hd : ∀ d ∈ ds, d.length = 16384)
    (o : Out) : Keeps (OnlyWide env.ff db name ((getTableColumnsFromDict tables db name).map (skelB true)) o)
      (pagesRun env tables db name recovery ds) := by
  induction ds with
  | nil => exact Keeps.pure _
  | cons d ds ih =>
    exact Keeps.bind (printPage_wide env tables db name recovery d (hd d (by simp)) o) fun _ => ih fun x hx => hd x (by simp [hx])

theorem user_length {cs ds : List Column} (h : cs.map (skelB true) = ds.map (skelB true)) : (userColumns cs).length = (userColumns ds).length := by
  have hn := skels_names h
  clear h
  have key : ∀ cs : List Column, (userColumns cs).length = ((cs.map (·.name)).filter fun n => decide (n ∉ internalNames)).length := by
    intro cs
    unfold userColumns
    rw [List.filter_map, List.length_map]
    rfl
  rw [key, key, hn]

/-- **C37, the lines.** However the run ends, each line printed is the statement of a row of the table: it has one value for each column of the
table in the dictionary that is not internal. -/
theorem C37_lines (env : Env) (file : File) (db name : Bytes) (recovery : Bool) (s : IState)
    (h : ∀ c ∈ getTableColumnsFromDict s.tables db name, ¬ (c.ftype = DATA_FIXBINARY ∧ c.mtype = MYSQL_TYPE_NEWDECIMAL)) :
    ∃ rows : List (List Column), (parseDataPage env file db name recovery s).st.out = s.out ++ rows.map (replaceStmt env.ff db name) ∧
      ∀ row ∈ rows, (userColumns row).length = (userColumns (getTableColumnsFromDict s.tables db name)).length := by
  cases file with
  | error e => exact ⟨[], by rw [List.map_nil, List.append_nil]; rfl, by simp⟩
  | ok content =>
    rw [parseDataPage_run]
    obtain ⟨_, _, rows, h1, h2⟩ := pagesRun_wide env s.tables db name recovery (selectedPages content recovery)
      (fun d hd => selectedPages_length hd) s.out ⟨getTableColumnsFromDict s.tables db name, s.out⟩ ⟨rfl, h, [], (List.append_nil _).symm, by simp⟩
    refine ⟨rows, ?_, fun row hrow => user_length (h2 row hrow)⟩
    generalize pagesRun env s.tables db name recovery _ _ = r at *
    cases r <;> exact h1

end Verif.Props
