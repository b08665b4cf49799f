import Verif.Proofs.Sql
import Verif.Props.RedoUpdate
import Verif.Props.Replace
/-!
# C44: the UPDATE statements as SQL
-/

namespace Verif.Props
open Verif Spec

/-- what an expression must denote for a column -/
def setVal (ff : FloatFmt) (c : UpdCol) : SqlVal := if c.value = .nil then .null else .bytes (fmtV ff c.value)

/-- no name needs escaping -/
def PlainNames (table : Table) (pk : List PkVal) (cols : List UpdCol) : Prop :=
  96 ∉ table.db ∧ 96 ∉ table.name ∧ (∀ c ∈ cols, 96 ∉ c.name) ∧ ∀ v ∈ pk, 96 ∉ v.name

/-- The statement assigns exactly the columns, with their values, and its conditions are exactly those of the key. -/
def ReadsAs (ff : FloatFmt) (table : Table) (pk : List PkVal) (cols : List UpdCol) (u : Update) : Prop :=
  u.db = table.db ∧ u.table = table.name ∧ All2 (fun e c => e.1 = c.name ∧ evalExpr e.2 = some (setVal ff c)) u.sets cols ∧
    All2 (fun e v => e.1 = v.name ∧ evalExpr e.2 = some (.bytes (fmtV ff v.value))) u.conds pk

/-- **C44**, as stated -/
def C44_statement : Prop := ∀ (ff : FloatFmt) (table : Table) (pk : List PkVal) (cols : List UpdCol), PlainNames table pk cols → pk ≠ [] → cols ≠ [] →
  (∀ v ∈ pk, v.value ≠ .nil) → ∃ u, readUpdate (updateStmt ff table pk cols) = some u ∧ ReadsAs ff table pk cols u

/-! ## Literals -/

/-- Text that denotes itself between quotes: no quote, and no backslash but before `%` and `_`. -/
inductive Raw : Bytes → Prop
  | nil : Raw []
  | plain {c t} (h1 : c ≠ 39) (h2 : c ≠ 92) (h : Raw t) : Raw (c :: t)
  | pattern {c t} (hc : c = 37 ∨ c = 95) (h : Raw t) : Raw (92 :: c :: t)

theorem raw_plain {v : Bytes} (h1 : 39 ∉ v) (h2 : 92 ∉ v) : Raw v := by
  induction v with
  | nil => exact .nil
  | cons c t ih =>
    rw [List.mem_cons, not_or] at h1 h2
    exact .plain (fun h => h1.1 h.symm) (fun h => h2.1 h.symm) (ih h1.2 h2.2)

theorem lexString_raw {v : Bytes} (h : Raw v) (rest : Bytes) (hr : rest.head? ≠ some 39) : lexString (v ++ 39 :: rest) = some (v, rest) := by
  induction h with
  | nil => exact lexString_close rest hr
  | plain h1 h2 _ ih => rw [List.cons_append, lexString_plain _ _ h1 h2, ih]; rfl
  | pattern hc _ ih =>
    rw [List.cons_append, List.cons_append, lexString_esc, ih]
    rcases hc with rfl | rfl <;> rfl

theorem unescape_length (c : UInt8) : (unescape c).length = 1 ∨ unescape c = [92, c] ∧ (c = 37 ∨ c = 95) := by
  unfold unescape
  repeat' split
  all_goals first | (right; rename_i h; simp_all; done) | (left; rfl)

theorem lexString_length (t r rest : Bytes) (h : lexString t = some (r, rest)) : r.length + 1 + rest.length ≤ t.length := by
  induction t using lexString.induct generalizing r rest with
  | case1 => cases h
  | case2 t ih =>
    rw [lexString] at h
    cases hq : lexString t with
    | none => rw [hq] at h; cases h
    | some q =>
      rw [hq] at h
      cases h
      have := ih _ _ hq
      simp only [List.length_cons] at this ⊢
      omega
  | case3 t hne =>
    rw [lexString] at h
    · cases h
      simp
      omega
    · exact hne
  | case4 => cases h
  | case5 c t ih =>
    rw [lexString] at h
    cases hq : lexString t with
    | none => rw [hq] at h; cases h
    | some q =>
      rw [hq] at h
      cases h
      have := ih _ _ hq
      have hu := unescape_length c
      simp only [List.length_cons, List.length_append] at this ⊢
      rcases hu with hu | ⟨hu, _⟩
      · omega
      · rw [hu]; simp only [List.length_cons, List.length_nil]; omega
  | case6 c t h1 h2 h3 h4 ih =>
    have e : lexString (c :: t) = (lexString t).map fun r => (c :: r.1, r.2) := by
      rw [lexString]
      all_goals assumption
    rw [e] at h
    cases hq : lexString t with
    | none => rw [hq] at h; cases h
    | some q =>
      rw [hq] at h
      cases h
      have := ih _ _ hq
      simp only [List.length_cons] at this ⊢
      omega

/-- **C44, values.** A value, printed between quotes without escaping, is read back exactly if it contains no quote, and no backslash
but in front of `%` and `_`. -/
theorem C44_value_iff (v rest : Bytes) (hr : rest.head? ≠ some 39) : lexString (v ++ 39 :: rest) = some (v, rest) ↔ Raw v := by
  refine ⟨fun h => ?_, fun h => lexString_raw h rest hr⟩
  induction v using lexString.induct with
  | case1 => exact .nil
  | case2 t _ =>
    have hl := lexString_length _ _ _ h
    rw [List.cons_append, List.cons_append, lexString] at h
    cases hq : lexString (t ++ 39 :: rest) with
    | none => rw [hq] at h; cases h
    | some q =>
      rw [hq] at h
      have h' := Option.some.inj h
      have h1 : 39 :: q.1 = 39 :: 39 :: t := congrArg (·.1) h'
      have h2 : q.2 = rest := congrArg (·.2) h'
      have h3 : q.1 = 39 :: t := (List.cons.inj h1).2
      have h4 := lexString_length _ q.1 q.2 hq
      rw [h2, h3] at h4
      simp only [List.length_cons, List.length_append] at h4
      omega
  | case3 t hne =>
    rw [List.cons_append] at h
    cases t with
    | nil =>
      have : lexString (39 :: 39 :: rest) = (lexString rest).map fun r => (39 :: r.1, r.2) := by rw [lexString]
      rw [show ([] : Bytes) ++ 39 :: rest = 39 :: rest from rfl, this] at h
      cases hq : lexString rest with
      | none => rw [hq] at h; cases h
      | some q =>
        rw [hq] at h
        have h4 := lexString_length _ q.1 q.2 hq
        have h2 : q.2 = rest := congrArg (·.2) (Option.some.inj h)
        rw [h2] at h4
        omega
    | cons c t =>
      have hc : c ≠ 39 := fun hc => hne t (by rw [hc])
      rw [lexString_close _ (by rw [List.cons_append, List.head?_cons]; intro hh; exact hc (Option.some.inj hh))] at h
      have := congrArg (·.1) (Option.some.inj h)
      cases this
  | case4 =>
    have : lexString (92 :: 39 :: rest) = (lexString rest).map fun r => (unescape 39 ++ r.1, r.2) := lexString_esc _ _
    rw [show [92] ++ 39 :: rest = 92 :: 39 :: rest from rfl, this] at h
    cases hq : lexString rest with
    | none => rw [hq] at h; cases h
    | some q =>
      rw [hq] at h
      have h4 := lexString_length _ q.1 q.2 hq
      have h2 : q.2 = rest := congrArg (·.2) (Option.some.inj h)
      rw [h2] at h4
      omega
  | case5 c t ih =>
    rw [List.cons_append, List.cons_append, lexString_esc] at h
    cases hq : lexString (t ++ 39 :: rest) with
    | none => rw [hq] at h; cases h
    | some q =>
      rw [hq] at h
      have h' := Option.some.inj h
      have h1 : unescape c ++ q.1 = 92 :: c :: t := congrArg (·.1) h'
      have h2 : q.2 = rest := congrArg (·.2) h'
      have h4 := lexString_length _ q.1 q.2 hq
      rw [h2] at h4
      have h5 := congrArg List.length h1
      simp only [List.length_cons, List.length_append] at h4 h5
      rcases unescape_length c with hu | ⟨hu, hc⟩
      · omega
      · rw [hu] at h1
        have h6 : q.1 = t := (List.cons.inj (List.cons.inj h1).2).2
        refine .pattern hc (ih ?_)
        rw [hq, ← h6, ← h2]
  | case6 c t h1 h2 h3 h4 ih =>
    have hc39 : c ≠ 39 := fun hc => h2 hc
    have hc92 : c ≠ 92 := by
      rintro rfl
      cases t with
      | nil => exact h3 rfl rfl
      | cons d t => exact h4 d t rfl rfl
    rw [List.cons_append, lexString_plain _ _ hc39 hc92] at h
    cases hq : lexString (t ++ 39 :: rest) with
    | none => rw [hq] at h; cases h
    | some q =>
      rw [hq] at h
      have h' := Option.some.inj h
      have e1 : q.1 = t := (List.cons.inj (congrArg (·.1) h')).2
      have e2 : q.2 = rest := congrArg (·.2) h'
      exact .plain hc39 hc92 (ih (by rw [hq, ← e1, ← e2]))

example : Raw (b! "100\\% of \"it\"") := by
  refine .plain (by decide) (by decide) (.plain (by decide) (by decide) (.plain (by decide) (by decide) (.pattern (Or.inl rfl) (raw_plain (by decide) (by decide)))))

/-! ## Statements -/

/-- text that is read as these tokens if a space or a semicolon follows -/
def ReadsTo (text : Bytes) (toks : List Tok) : Prop :=
  ∀ rest, (rest.head? = some 32 ∨ rest.head? = some 59) → lex (text ++ rest) = (lex rest).map (toks ++ ·)

theorem reads_assign {name v : Bytes} (hn : 96 ∉ name) (hv : Raw v) : ReadsTo (assignText (name, some v)) [.ident name, .sym 61, .str v] := by
  intro rest hr
  have h39 : rest.head? ≠ some 39 := by rcases hr with h | h <;> rw [h] <;> decide
  have e : assignText (name, some v) ++ rest = 96 :: (name ++ 96 :: (61 :: (39 :: (v ++ 39 :: rest)))) := by
    simp [assignText]
  rw [e, lex_ident name _ hn (by simp), lex_sym 61 _ (by decide), lex_step (k := .str v) (r := rest) rfl ?_ (by simp; omega)]
  · simp only [Option.map_map]; rfl
  · unfold lexOne
    rw [if_pos rfl, lexString_raw hv rest h39]
    rfl

theorem reads_assign_null {name : Bytes} (hn : 96 ∉ name) : ReadsTo (assignText (name, none)) [.ident name, .sym 61, .word (b! "null")] := by
  intro rest hr
  have e : assignText (name, none) ++ rest = 96 :: (name ++ 96 :: (61 :: (78 :: (b! "ULL" ++ rest)))) := by
    simp [assignText]
  rw [e, lex_ident name _ hn (by simp), lex_sym 61 _ (by decide), lex_word 78 (b! "ULL") rest (by decide) (fun h => by cases h) ?_]
  · simp only [Option.map_map]; rfl
  · intro x hx
    rw [hx] at hr
    rcases hr with h | h <;> cases h <;> decide

/-- groups of tokens with a token between -/
def joinTok (sep : Tok) : List (List Tok) → List Tok
  | [] => []
  | [g] => g
  | g :: gs => g ++ sep :: joinTok sep gs

theorem reads_and {texts : List Bytes} {toks : List (List Tok)} (h : All2 ReadsTo texts toks) :
    ReadsTo (joinSep (b! " and ") texts) (joinTok (.word (b! "and")) toks) := by
  intro rest hr
  induction h with
  | nil => show lex rest = (lex rest).map ([] ++ ·); simp
  | @cons t k ts ks h1 h2 ih =>
    cases h2 with
    | nil => exact h1 rest hr
    | @cons t' k' ts ks h3 h4 =>
      have e : joinSep (b! " and ") (t :: t' :: ts) ++ rest = t ++ (32 :: (97 :: (b! "nd" ++ (32 :: (joinSep (b! " and ") (t' :: ts) ++ rest))))) := by
        simp [joinSep]
      rw [e, h1 _ (Or.inl rfl), lex_space, lex_word 97 (b! "nd") _ (by decide) (fun h => by cases h) (by intro x hx; cases hx; decide), lex_space, ih]
      simp only [Option.map_map]
      congr 1
      funext x
      simp [joinTok]
      decide

theorem splitTok_none {sep : Tok} {g : List Tok} (h : sep ∉ g) : splitTok sep g = [g] := by
  induction g with
  | nil => rfl
  | cons t g ih =>
    rw [List.mem_cons, not_or] at h
    rw [splitTok, if_neg (fun hh => h.1 hh.symm), ih h.2]

theorem splitTok_sep {sep : Tok} {g ts : List Tok} (h : sep ∉ g) : splitTok sep (g ++ sep :: ts) = g :: splitTok sep ts := by
  induction g with
  | nil => rw [List.nil_append, splitTok, if_pos rfl]
  | cons t g ih =>
    rw [List.mem_cons, not_or] at h
    rw [List.cons_append, splitTok, if_neg (fun hh => h.1 hh.symm), ih h.2]

theorem splitTok_join {sep : Tok} {g : List Tok} {gs : List (List Tok)} (h : ∀ x ∈ g :: gs, sep ∉ x) : splitTok sep (joinTok sep (g :: gs)) = g :: gs := by
  induction gs generalizing g with
  | nil => exact splitTok_none (h g List.mem_cons_self)
  | cons k gs ih =>
    show splitTok sep (g ++ sep :: joinTok sep (k :: gs)) = _
    rw [splitTok_sep (h g List.mem_cons_self), ih fun x hx => h x (List.mem_cons_of_mem _ hx)]

/-- The statement is read as its parts. -/
theorem lex_update (db table sets conds : Bytes) (ts tc : List Tok) (hdb : 96 ∉ db) (ht : 96 ∉ table) (h1 : ReadsTo sets ts) (h2 : ReadsTo conds tc) :
    lex (b! "update `" ++ db ++ b! "`.`" ++ table ++ b! "` set " ++ sets ++ b! " where " ++ conds ++ b! ";") =
      some ([.word (b! "update"), .ident db, .sym 46, .ident table, .word (b! "set")] ++ (ts ++ .word (b! "where") :: (tc ++ [.sym 59]))) := by
  have e : b! "update `" ++ db ++ b! "`.`" ++ table ++ b! "` set " ++ sets ++ b! " where " ++ conds ++ b! ";" =
      117 :: (b! "pdate" ++ 32 :: 96 :: (db ++ 96 :: (46 :: 96 :: (table ++ 96 :: (32 :: (115 :: (b! "et" ++ 32 :: (sets ++ (32 ::
        (119 :: (b! "here" ++ 32 :: (conds ++ [59])))))))))))) := by simp
  rw [e, lex_word _ _ _ (by decide) (fun h => by cases h) (by intro x hx; cases hx; decide), lex_space,
    lex_ident db _ hdb (by simp), lex_sym 46 _ (by decide), lex_ident table _ ht (by simp), lex_space,
    lex_word _ _ _ (by decide) (fun h => by cases h) (by intro x hx; cases hx; decide), lex_space, h1 _ (Or.inl rfl), lex_space,
    lex_word _ _ _ (by decide) (fun h => by cases h) (by intro x hx; cases hx; decide), lex_space, h2 _ (Or.inr rfl)]
  have : lex [59] = some [.sym 59] := by decide
  rw [this]
  simp only [Option.map_some]
  simp
  decide

theorem parse_update (db table : Bytes) (ts tc : List Tok) (h1 : .word (b! "where") ∉ ts) (h2 : .word (b! "where") ∉ tc) :
    parseUpdate ([.word (b! "update"), .ident db, .sym 46, .ident table, .word (b! "set")] ++ (ts ++ .word (b! "where") :: (tc ++ [.sym 59]))) =
      match (splitTok (.sym 44) ts).mapM parseEq, (splitTok (.word (b! "and")) tc).mapM parseEq with
      | some s, some c => some ⟨db, table, s, c⟩
      | _, _ => none := by
  simp only [List.cons_append, List.nil_append, parseUpdate]
  rw [if_pos (by decide)]
  have e : (ts ++ Tok.word (b! "where") :: (tc ++ [Tok.sym 59])).reverse = Tok.sym 59 :: (ts ++ Tok.word (b! "where") :: tc).reverse := by simp
  rw [e]
  show parseParts db table (ts ++ Tok.word (b! "where") :: tc).reverse.reverse = _
  rw [List.reverse_reverse, parseParts, splitTok_sep h1, splitTok_none h2]
  rfl

/-- the tokens of an assignment -/
def setToks (ff : FloatFmt) (c : UpdCol) : List Tok := [.ident c.name, .sym 61, if c.value = .nil then .word (b! "null") else .str (fmtV ff c.value)]
def condToks (ff : FloatFmt) (v : PkVal) : List Tok := [.ident v.name, .sym 61, .str (fmtV ff v.value)]

/-- Values that denote themselves between quotes. -/
def PlainValues (ff : FloatFmt) (pk : List PkVal) (cols : List UpdCol) : Prop :=
  (∀ c ∈ cols, c.value ≠ .nil → Raw (fmtV ff c.value)) ∧ ∀ v ∈ pk, Raw (fmtV ff v.value)

/-- How a statement with such values is read, whatever the number of columns. -/
theorem update_toks (ff : FloatFmt) (table : Table) (pk : List PkVal) (cols : List UpdCol) (hn : PlainNames table pk cols) (hv : PlainValues ff pk cols) :
    readUpdate (updateStmt ff table pk cols) =
      match (splitTok (.sym 44) (joinTok (.word (b! "and")) (cols.map (setToks ff)))).mapM parseEq,
        (splitTok (.word (b! "and")) (joinTok (.word (b! "and")) (pk.map (condToks ff)))).mapM parseEq with
      | some s, some c => some ⟨table.db, table.name, s, c⟩
      | _, _ => none := by
  obtain ⟨n1, n2, n3, n4⟩ := hn
  obtain ⟨v1, v2⟩ := hv
  have r1 : All2 ReadsTo (cols.map (setText ff)) (cols.map (setToks ff)) := by
    induction cols with
    | nil => exact .nil
    | cons c cs ih =>
      refine .cons ?_ (ih (fun c hc => n3 c (List.mem_cons_of_mem _ hc)) fun c hc => v1 c (List.mem_cons_of_mem _ hc))
      rw [setText_eq, setToks]
      by_cases h : c.value = .nil
      · rw [if_pos h, if_pos h]
        exact reads_assign_null (n3 c List.mem_cons_self)
      · rw [if_neg h, if_neg h]
        exact reads_assign (n3 c List.mem_cons_self) (v1 c List.mem_cons_self h)
  have r2 : All2 ReadsTo (pk.map (whereText ff)) (pk.map (condToks ff)) := by
    clear r1
    induction pk with
    | nil => exact .nil
    | cons c cs ih =>
      exact .cons (reads_assign (n4 c List.mem_cons_self) (v2 c List.mem_cons_self))
        (ih (fun c hc => n4 c (List.mem_cons_of_mem _ hc)) fun c hc => v2 c (List.mem_cons_of_mem _ hc))
  have hw : ∀ gs : List (List Tok), (∀ g ∈ gs, Tok.word (b! "where") ∉ g) → Tok.word (b! "where") ∉ joinTok (.word (b! "and")) gs := by
    intro gs
    induction gs with
    | nil => intro _; exact List.not_mem_nil
    | cons g gs ih =>
      intro h
      cases gs with
      | nil => exact h g List.mem_cons_self
      | cons g' gs =>
        show _ ∉ g ++ Tok.word (b! "and") :: joinTok _ (g' :: gs)
        rw [List.mem_append, List.mem_cons, not_or, not_or]
        exact ⟨h g List.mem_cons_self, by decide, ih fun x hx => h x (List.mem_cons_of_mem _ hx)⟩
  unfold readUpdate updateStmt
  rw [joinAnd_eq, joinAnd_eq, lex_update _ _ _ _ _ _ n1 n2 (reads_and r1) (reads_and r2), Option.bind_some, parse_update _ _ _ _ (hw _ ?_) (hw _ ?_)]
  · intro g hg
    obtain ⟨c, _, rfl⟩ := List.mem_map.mp hg
    unfold setToks
    split <;> simp
  · intro g hg
    obtain ⟨c, _, rfl⟩ := List.mem_map.mp hg
    simp [condToks]

theorem conds_parse (ff : FloatFmt) (pk : List PkVal) (hne : pk ≠ []) :
    (splitTok (.word (b! "and")) (joinTok (.word (b! "and")) (pk.map (condToks ff)))).mapM parseEq =
      some (pk.map fun v => (v.name, [Tok.str (fmtV ff v.value)])) := by
  cases pk with
  | nil => exact absurd rfl hne
  | cons v vs =>
    rw [List.map_cons, splitTok_join]
    · rw [← List.map_cons (f := condToks ff)]
      generalize v :: vs = l
      induction l with
      | nil => rfl
      | cons v vs ih =>
        rw [List.map_cons, List.mapM_cons, ih]
        rfl
    · intro x hx
      rw [← List.map_cons (f := condToks ff)] at hx
      obtain ⟨c, _, rfl⟩ := List.mem_map.mp hx
      simp [condToks]

/-- **C44 (partial).** With one updated column, the statement assigns exactly this column and has exactly the conditions of the key, of any
number of columns.  Missing: more columns (`C44_more_columns`), values with a quote or backslash (`C44_value_iff`, `C44_injection`), names
with a backtick, an empty key (`C44_empty_key`). -/
theorem C44_one_column_partial (ff : FloatFmt) (table : Table) (pk : List PkVal) (c : UpdCol) (hn : PlainNames table pk [c])
    (hv : PlainValues ff pk [c]) (hne : pk ≠ []) : ∃ u, readUpdate (updateStmt ff table pk [c]) = some u ∧ ReadsAs ff table pk [c] u := by
  rw [update_toks ff table pk [c] hn hv, conds_parse ff pk hne]
  have : (splitTok (.sym 44) (joinTok (.word (b! "and")) ([c].map (setToks ff)))).mapM parseEq =
      some [(c.name, [if c.value = .nil then .word (b! "null") else .str (fmtV ff c.value)])] := by
    show (splitTok (.sym 44) (setToks ff c)).mapM parseEq = _
    rw [splitTok_none]
    · rfl
    · unfold setToks
      split <;> simp
  rw [this]
  refine ⟨_, rfl, rfl, rfl, .cons ⟨rfl, ?_⟩ .nil, ?_⟩
  · unfold setVal
    by_cases h : c.value = .nil
    · rw [if_pos h, if_pos h]; rfl
    · rw [if_neg h, if_neg h]; rfl
  · clear hn hv hne this
    dsimp only
    induction pk with
    | nil => exact .nil
    | cons v vs ih => exact .cons ⟨rfl, rfl⟩ ih

example : ∃ u, readUpdate (updateStmt anyFmt { db := b! "d", name := b! "t" } [⟨b! "id", .int 7⟩, ⟨b! "k", .str (b! "a and b")⟩] [⟨b! "c", .str (b! "where, ;")⟩]) = some u ∧
    ReadsAs anyFmt { db := b! "d", name := b! "t" } [⟨b! "id", .int 7⟩, ⟨b! "k", .str (b! "a and b")⟩] [⟨b! "c", .str (b! "where, ;")⟩] u := by
  refine C44_one_column_partial anyFmt _ _ _ ⟨by decide, by decide, by decide, by decide⟩ ⟨?_, ?_⟩ (by decide)
  · intro c hc _
    have : c = ⟨b! "c", .str (b! "where, ;")⟩ := List.mem_singleton.mp hc
    subst this
    exact raw_plain (by decide) (by decide)
  · have : ∀ v ∈ [(⟨b! "id", .int 7⟩ : PkVal), ⟨b! "k", .str (b! "a and b")⟩], 39 ∉ fmtV anyFmt v.value ∧ 92 ∉ fmtV anyFmt v.value := by decide
    exact fun v hv => raw_plain (this v hv).1 (this v hv).2

/-! ## Where it fails -/

/-- With two or more updated columns the statement, though valid, assigns the first column only, and not its old value: `and` is part of the
expression. -/
theorem C44_more_columns (ff : FloatFmt) (table : Table) (pk : List PkVal) (c d : UpdCol) (cs : List UpdCol) (hn : PlainNames table pk (c :: d :: cs))
    (hv : PlainValues ff pk (c :: d :: cs)) (hne : pk ≠ []) : ∃ u e, readUpdate (updateStmt ff table pk (c :: d :: cs)) = some u ∧
      u.sets = [(c.name, e)] ∧ evalExpr e = none := by
  rw [update_toks ff table pk _ hn hv, conds_parse ff pk hne]
  have hc : Tok.sym 44 ∉ joinTok (.word (b! "and")) ((c :: d :: cs).map (setToks ff)) := by
    generalize c :: d :: cs = l
    induction l with
    | nil => exact List.not_mem_nil
    | cons x l ih =>
      have hx : Tok.sym 44 ∉ setToks ff x := by
        unfold setToks
        split <;> simp
      cases l with
      | nil => exact hx
      | cons y l =>
        show _ ∉ setToks ff x ++ Tok.word (b! "and") :: joinTok _ ((y :: l).map (setToks ff))
        rw [List.mem_append, List.mem_cons, not_or, not_or]
        exact ⟨hx, by decide, ih⟩
  rw [splitTok_none hc]
  have e : joinTok (.word (b! "and")) ((c :: d :: cs).map (setToks ff)) =
      .ident c.name :: .sym 61 :: ((if c.value = .nil then .word (b! "null") else .str (fmtV ff c.value)) :: .word (b! "and") ::
        joinTok (.word (b! "and")) ((d :: cs).map (setToks ff))) := rfl
  rw [e]
  refine ⟨_, _, rfl, rfl, ?_⟩
  have hd : ∃ t ts, joinTok (.word (b! "and")) ((d :: cs).map (setToks ff)) = t :: ts := by
    cases cs <;> exact ⟨_, _, rfl⟩
  obtain ⟨t, ts, hts⟩ := hd
  rw [hts]
  generalize (if c.value = .nil then Tok.word (b! "null") else .str (fmtV ff c.value)) = x
  unfold evalExpr
  split
  · rename_i h; cases h
  · rename_i h; cases h
  · rfl

/-- Hence C44 is false. -/
theorem C44_false : ¬ C44_statement := by
  intro h
  obtain ⟨u, h1, h2⟩ := h anyFmt { db := b! "d", name := b! "t" } [⟨b! "id", .int 7⟩] [⟨b! "a", .int 1⟩, ⟨b! "b", .int 2⟩]
    ⟨by decide, by decide, by decide, by decide⟩ (by decide) (by decide) (by decide)
  have h3 : readUpdate (updateStmt anyFmt { db := b! "d", name := b! "t" } [⟨b! "id", .int 7⟩] [⟨b! "a", .int 1⟩, ⟨b! "b", .int 2⟩]) =
      some ⟨b! "d", b! "t", [(b! "a", [.str (b! "1"), .word (b! "and"), .ident (b! "b"), .sym 61, .str (b! "2")])], [(b! "id", [.str (b! "7")])]⟩ := by decide
  rw [h1] at h3
  cases h3
  have := h2.2.2.1
  cases this with
  | cons _ h => cases h

/-- Injection: a value that makes the statement assign a second column. -/
theorem C44_injection : readUpdate (updateStmt anyFmt { db := b! "d", name := b! "t" } [⟨b! "id", .int 7⟩] [⟨b! "a", .str (b! "x', `b`='y")⟩]) =
    some ⟨b! "d", b! "t", [(b! "a", [.str (b! "x")]), (b! "b", [.str (b! "y")])], [(b! "id", [.str (b! "7")])]⟩ := by decide

/-- A quote alone makes it invalid. -/
theorem C44_quote : readUpdate (updateStmt anyFmt { db := b! "d", name := b! "t" } [⟨b! "id", .int 7⟩] [⟨b! "a", .str (b! "it's")⟩]) = none := by decide

/-- So does an empty key. -/
theorem C44_empty_key (ff : FloatFmt) (table : Table) (cols : List UpdCol) (hn : PlainNames table [] cols) (hv : PlainValues ff [] cols) :
    readUpdate (updateStmt ff table [] cols) = none := by
  rw [update_toks ff table [] cols hn hv]
  have : (splitTok (.word (b! "and")) (joinTok (.word (b! "and")) (([] : List PkVal).map (condToks ff)))).mapM parseEq = none := rfl
  rw [this]
  split <;> simp_all

example : PlainNames { db := b! "d", name := b! "t" } [] [⟨b! "a", .nil⟩] ∧ PlainValues anyFmt [] [⟨b! "a", .nil⟩] := by
  refine ⟨⟨by decide, by decide, by decide, by decide⟩, fun c hc h => absurd ?_ h, nofun⟩
  rw [List.mem_singleton.mp hc]

end Verif.Props
