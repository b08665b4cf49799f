import Verif.Props.Script
import Verif.Props.DataValues
/-!
# C72, exactly, as to the values
-/

set_option linter.unusedSimpArgs false

namespace Verif.Props
open Verif Spec

/-! ## Which scripts can be read -/

theorem joinToks_semi {gs : List (List Tok)} (h : ∀ g ∈ gs, Tok.sym 59 ∉ g) : Tok.sym 59 ∉ joinToks gs := by
  induction gs with
  | nil => exact fun h => by cases h
  | cons g gs ih =>
    cases gs with
    | nil => exact h g (by simp)
    | cons g' gs =>
      rw [joinToks_cons]
      have h1 := ih fun x hx => h x (by simp [hx])
      have h2 := h g (by simp)
      simp only [List.mem_append, List.mem_cons, Tok.sym.injEq, not_or]
      exact ⟨h2, by decide, h1⟩

/-- A printed statement is read as one statement, or it cannot be read whatever follows. -/
theorem stmt_fate (ff : FloatFmt) (db table : Bytes) (cols : List Column) (hdb : 96 ∉ db) (ht : 96 ∉ table) :
    (∃ ts, lex (replaceStmt ff db table cols) = some ts ∧ OneStatement ts) ∨ ∀ rest, lex (replaceStmt ff db table cols ++ rest) = none := by
  rcases join_fate ff (userColumns cols) with ⟨toks, ha⟩ | hf
  · left
    rw [stmt_eq, List.append_assoc (b! "replace into `" ++ db ++ b! "`.`" ++ table ++ b! "` values ("), lex_head db table _ hdb ht]
    have h1 : All2 Reads ((userColumns cols).map (valueText ff)) toks := by
      generalize userColumns cols = us at ha
      induction ha with
      | nil => exact .nil
      | cons h _ ih => exact .cons h.1 ih
    have h2 : ∀ g ∈ toks, Tok.sym 59 ∉ g := by
      intro g hg
      obtain ⟨c, h⟩ := all2_back ha g hg
      exact h.2.2.1.2
    have e := reads_join h1 (b! ");") rfl
    rw [show lex (b! ");") = some [.sym 41, .sym 59] by decide] at e
    change ∃ ts, (lex (joinTexts ((userColumns cols).map (valueText ff)) ++ b! ");")).map _ = _ ∧ _
    rw [e]
    refine ⟨_, rfl, ?_⟩
    refine ⟨[.word (b! "replace"), .word (b! "into"), .ident db, .sym 46, .ident table, .word (b! "values"), .sym 40] ++ (joinToks toks ++ [.sym 41]), ?_, ?_⟩
    · simp
    · have := joinToks_semi h2
      simp only [List.mem_append, List.mem_cons, List.not_mem_nil, or_false, reduceCtorEq, Tok.sym.injEq, false_or, not_or]
      exact ⟨⟨by decide, by decide⟩, this, by decide⟩
  · right
    intro rest
    rw [stmt_eq, List.append_assoc (b! "replace into `" ++ db ++ b! "`.`" ++ table ++ b! "` values ("), List.append_assoc, lex_head db table _ hdb ht,
      List.append_assoc]
    have := hf (b! ");" ++ rest) rfl
    change (lex (joinTexts ((userColumns cols).map (valueText ff)) ++ (b! ");" ++ rest))).map _ = _
    rw [this]
    rfl

/-- a script of printed statements that can be read is read line by line -/
theorem script_lines (ff : FloatFmt) (db table : Bytes) (rws : List (List Column)) (hdb : 96 ∉ db) (ht : 96 ∉ table) (ss : List Replace)
    (h : readReplaces (stdout (rws.map (replaceStmt ff db table))) = some ss) :
    All2 (fun cs s => readReplace (replaceStmt ff db table cs) = some s) rws ss := by
  have key : (∃ tss, All2 (fun l ts => lex l = some ts) (rws.map (replaceStmt ff db table)) tss ∧ ∀ ts ∈ tss, OneStatement ts) ∨
      lex (stdout (rws.map (replaceStmt ff db table))) = none := by
    clear h
    induction rws with
    | nil => exact .inl ⟨[], .nil, by simp⟩
    | cons cs rws ih =>
      have e : stdout ((cs :: rws).map (replaceStmt ff db table)) = replaceStmt ff db table cs ++ 10 :: stdout (rws.map (replaceStmt ff db table)) := by
        unfold stdout
        rw [List.map_cons, List.flatMap_cons, List.append_assoc]
        rfl
      rcases stmt_fate ff db table cs hdb ht with ⟨ts, h1, h2⟩ | h1
      · rcases ih with ⟨tss, h3, h4⟩ | h3
        · refine .inl ⟨ts :: tss, .cons h1 h3, ?_⟩
          intro x hx
          rcases List.mem_cons.mp hx with rfl | hx
          · exact h2
          · exact h4 x hx
        · right
          rw [e, lex_line _ _ ts h1, h3]
          rfl
      · right
        rw [e, h1]
  rcases key with ⟨tss, h1, h2⟩ | h1
  · unfold readReplaces at h
    rw [lex_stdout h1, Option.bind_some, statements_flatten h2, Option.bind_some] at h
    have h3 := mapM_all2 h
    clear h h2
    induction rws generalizing tss ss with
    | nil => cases h1; cases h3; exact .nil
    | cons cs rws ih =>
      cases h1 with
      | cons k1 k2 =>
        cases h3 with
        | cons k3 k4 =>
          refine .cons ?_ (ih _ _ k2 k4)
          unfold readReplace
          rw [k1, Option.bind_some]
          exact k3
  · unfold readReplaces at h
    rw [h1] at h
    cases h

/-- what a script that can be executed does -/
theorem exec_rows {sv : Server} {cols : List Column} {same : List Orig → List Orig → Bool} {db table : Bytes} {ss : List Replace} {t after : List (List Orig)}
    (h : execReplaces sv cols same db table t ss = some after) :
    ∃ rs, All2 (fun s row => assignRow sv cols s.values = some row) ss rs ∧ after = rs.foldl (replaceRow same) t := by
  induction ss generalizing t with
  | nil => cases h; exact ⟨[], .nil, rfl⟩
  | cons s ss ih =>
    rw [execReplaces] at h
    split at h
    · obtain ⟨row, h1, h2⟩ := Option.bind_eq_some_iff.mp h
      obtain ⟨rs, h3, h4⟩ := ih h2
      exact ⟨row :: rs, .cons h1 h3, h4⟩
    · cases h

theorem latest_sublist (same : List Orig → List Orig → Bool) (rs : List (List Orig)) : (latest same rs).Sublist rs := by
  induction rs with
  | nil => exact .slnil
  | cons r rs ih =>
    rw [latest]
    split
    · exact .cons _ ih
    · exact .cons_cons _ ih

/-! ## One value -/

/-- the server takes no empty string for a number, as when its SQL mode is strict -/
def Strict (sv : Server) : Prop := sv.f32 [] = none ∧ sv.f64 [] = none

theorem assign_cases {sv : Server} {c : Column} {v : SqlVal} {o : Orig} (h : assign sv c v = some o) :
    match o with
    | .null => v = .null
    | .text t => v = .bytes t
    | .binary t => v = .bytes t
    | .bit n => v = .bits n
    | .int i => ∃ x, v = .bytes x ∧ intVal x = some i
    | .float b => ∃ x, v = .bytes x ∧ sv.f32 x = some b
    | .double b => ∃ x, v = .bytes x ∧ sv.f64 x = some b := by
  cases v with
  | null => cases h; rfl
  | bits n =>
    rw [assign] at h
    split at h
    · cases h; rfl
    · cases h
  | bytes x =>
    rw [assign] at h
    split at h
    · obtain ⟨b, h1, rfl⟩ := Option.map_eq_some_iff.mp h
      exact ⟨x, rfl, h1⟩
    split at h
    · obtain ⟨b, h1, rfl⟩ := Option.map_eq_some_iff.mp h
      exact ⟨x, rfl, h1⟩
    split at h
    · obtain ⟨b, h1, rfl⟩ := Option.map_eq_some_iff.mp h
      exact ⟨x, rfl, h1⟩
    split at h
    · cases h; rfl
    split at h
    · cases h
    · cases h; rfl

/-- the text of a column that is neither binary nor BIT nor NULL -/
theorem plain_value {ff : FloatFmt} {c : Column} {g : List Tok} {v : SqlVal} (hm : c.mtype ≠ MYSQL_TYPE_BIT) (hb : c.isBinary = false)
    (hn : c.value ≠ .nil ∧ c.value ≠ .str (b! "NULL")) (hg : Reads (valueText ff c) g) (hv : evalExpr g = some v) :
    v = .bytes (if fmtV ff c.value = b! "0001-01-01T00:00:00Z" then [] else fmtV ff c.value) := by
  rw [vt_plain ff hm hb hn] at hg
  cases reads_unique hg (reads_quoted' _)
  cases hv
  rfl

/-- What makes the stored value again denotes it. -/
theorem assigned_denotes {sv : Server} {ff : FloatFmt} (hs : Strict sv) {c c' : Column} {y : Option TVal} (hseen : SeenAs ff c' y) {g : List Tok} {v : SqlVal}
    (hg : Reads (valueText ff c') g) (hv : evalExpr g = some v) (ha : assign sv c v = some (origOf ff y)) : Denotes ff v (origOf ff y) := by
  have ha := assign_cases ha
  obtain ⟨o, ho, hc⟩ := hseen
  have hshape : (o = origOf ff y) ∨ FarFrom o (origOf ff y) := hc.imp (·.2) id
  generalize origOf ff y = w at *
  cases w with
  | null => rw [show v = .null from ha]; trivial
  | text t => rw [show v = .bytes t from ha]; exact rfl
  | binary t => rw [show v = .bytes t from ha]; exact rfl
  | bit n => rw [show v = .bits n from ha]; exact rfl
  | int i =>
    obtain ⟨x, rfl, hx⟩ := ha
    have : ∃ j, o = .int j := by
      rcases hshape with rfl | h
      · exact ⟨_, rfl⟩
      · cases o with
        | int j => exact ⟨j, rfl⟩
        | _ => exact absurd h id
    obtain ⟨j, rfl⟩ := this
    obtain ⟨h1, h2, h3⟩ := ho
    have key : ∀ z, fmtV ff c'.value = z → Numeral z j → c'.value ≠ .nil ∧ c'.value ≠ .str (b! "NULL") → Numeral x i := by
      intro z hz hn hne
      have hp := plain_value h3 h2 hne hg hv
      rw [hz, if_neg] at hp
      · cases hp
        rw [hn.1] at hx
        cases hx
        exact hn
      · rintro rfl
        exact absurd hn.1 (by
          rw [show intVal (b! "0001-01-01T00:00:00Z") = none by decide]
          nofun)
    rcases h1 with h1 | ⟨n, h1, rfl⟩
    · exact key (decInt j) (by rw [h1]; rfl) (numeral_decInt j) (by rw [h1]; exact ⟨nofun, nofun⟩)
    · exact key (dec n) (by rw [h1]; rfl) (numeral_dec n) (by rw [h1]; exact ⟨nofun, nofun⟩)
  | float b =>
    obtain ⟨x, rfl, hx⟩ := ha
    rcases hshape with rfl | h
    · obtain ⟨h1, h2, h3⟩ := ho
      have hp := plain_value h3 h2 (by rw [h1]; exact ⟨nofun, nofun⟩) hg hv
      injection hp with hp
      split at hp
      · rw [hp, hs.1] at hx
        cases hx
      · rw [hp, h1]
        exact rfl
    · cases o <;> exact absurd h id
  | double b =>
    obtain ⟨x, rfl, hx⟩ := ha
    rcases hshape with rfl | h
    · obtain ⟨h1, h2, h3⟩ := ho
      have hp := plain_value h3 h2 (by rw [h1]; exact ⟨nofun, nofun⟩) hg hv
      injection hp with hp
      split at hp
      · rw [hp, hs.2] at hx
        cases hx
      · rw [hp, h1]
        exact rfl
    · cases o <;> exact absurd h id

theorem assignedRow_denotes {sv : Server} {ff : FloatFmt} (hs : Strict sv) {us cols : List Column} {row : List (Option TVal)} {xs : List SqlVal}
    (h : All2 (SeenAs ff) us row)
    (hx : All2 (fun c v => ∃ g, Reads (valueText ff c) g ∧ evalExpr g = some v ∧ ∀ o, Holds c o → Denotes ff v o → Restorable ff c o) us xs)
    (ha : assignRow sv cols xs = some (sqlRow ff row)) : All2 (Denotes ff) xs (row.map (origOf ff)) := by
  unfold sqlRow at ha
  induction h generalizing cols xs with
  | nil => cases hx; exact .nil
  | @cons u y us row h _ ih =>
    cases hx with
    | @cons _ x _ xs hx hxs =>
      cases cols with
      | nil => cases ha
      | cons c cols =>
        rw [assignRow, List.map_cons] at ha
        obtain ⟨o, h1, h2⟩ := Option.bind_eq_some_iff.mp ha
        obtain ⟨os, h3, h4⟩ := Option.map_eq_some_iff.mp h2
        injection h4 with h4 h5
        subst h4 h5
        obtain ⟨g, g1, g2, _⟩ := hx
        exact .cons (assigned_denotes hs h g1 g2 h1) (ih hxs h3)

/-! ## The command -/

/-- **C72, exactly, as to the values.** Whatever values a table holds (bit-packed DATETIME values in the years 1991 to 2099), the standard output of
the data command, executed on an empty table, gives exactly the rows of the file if and only if all values are `Restored`. -/
theorem C72_iff (env : Env) (a : FromData) (sys ibd : Bytes) (trs : List TableRow) (crs : List ColumnRow)
    (irs : List IndexRow) (frs : List FieldRow) (t : TableRow) (r : IndexRow) (l : List Column) (defs : List ColDef) (deleted : Bool)
    (rows : List (List (Option TVal))) (sv : Server) (same : List Orig → List Orig → Bool)
    (hsys : a.sysFile = .ok sys) (hibd : a.tableFile = .ok ibd) (hdict : Dictionary sys trs crs irs frs)
    (ht : t ∈ trs) (hname : t.name = a.db ++ b! "/" ++ a.table) (hl : Layout irs frs t.id (columnsOf crs t.id) l)
    (hfile : TableFile env ibd r.id (columnsOf crs t.id) l defs deleted rows) (hop : deleted = true ↔ a.opType = b! "RecoveryData")
    (harr : ∀ t ∈ trs, UsualKeys irs frs crs t.id) (hh : Handled irs frs crs t.id)
    (hmark : Marked ibd r.id deleted)
    (hcompact : ∀ d ∈ leafPages ibd r.id deleted, isCompact d = true → ∀ k ∈ defs, k.kind.Readable)
    (hredundant : ∀ d ∈ leafPages ibd r.id deleted, isCompact d = false →
      (∀ k ∈ defs, ∀ m, k.kind = .varcharLatin1 m → m = 0) ∧ ∀ row ∈ rows, none ∉ row)
    (hyears : ∀ row ∈ rows, ∀ c, some (.datetime c) ∈ row → 1991 ≤ c.year ∧ c.year ≤ 2099) (hdb : 96 ∉ a.db) (htab : 96 ∉ a.table)
    (hstrict : Strict sv) (hr : ∀ row ∈ rows, ∀ x ∈ row, ReadsNumber sv env.ff x)
    (hd : (rows.map (sqlRow env.ff)).Pairwise (fun r r' => same r r' = false)) :
    (∃ lines, fromDataFile env a [] = .ok () lines ∧
      execScript sv (columnsOf crs t.id) same a.db a.table (stdout lines) [] = some (rows.map (sqlRow env.ff))) ↔
      ∀ row ∈ rows, All2 (Restored env.ff) (columnsOf crs t.id) row := by
  constructor
  · rintro ⟨lines, h1, h2⟩
    have hus : ∀ row ∈ rows, All2 (fun c x => (False → Restored env.ff c x) ∧ ∀ v, x = some v → UsualYear v) (columnsOf crs t.id) row := by
      intro row hrow
      have h1 := hfile.typed row hrow
      have h2 := hyears row hrow
      clear * - h1 h2
      generalize columnsOf crs t.id = cs at h1 ⊢
      induction h1 with
      | nil => exact .nil
      | @cons c x cs xs h _ ih =>
        refine .cons ⟨False.elim, fun v hv => ?_⟩ (ih fun v hv => h2 v (by simp [hv]))
        cases v with
        | datetime k => exact h2 k (by simp [hv])
        | _ => trivial
    obtain ⟨tables, rss, hst, hrows, hlen, hall, e⟩ := command_run env False UsualYear a sys ibd trs crs irs frs t r l defs deleted rows hsys hibd
      hdict ht hname hl hfile hop harr hh hmark hcompact hredundant hus []
    rw [h1] at e
    cases hp : pagesRun env tables a.db a.table deleted (leafPages ibd r.id deleted) ⟨l, []⟩ with
    | panic _ => rw [hp] at e; cases e
    | hang _ => rw [hp] at e; cases e
    | ok u s =>
      rw [hp] at e
      injection e with _ e
      obtain ⟨rws, g1, g2⟩ := pages_seen env tables a.db a.table l defs hst deleted _ hlen rss hall ⟨l, []⟩ s rfl hp
      rw [← e] at g1
      rw [← hrows] at g2
      have g1 : lines = rws.map (replaceStmt env.ff a.db a.table) := by simpa using g1
      subst g1
      have huser := (handled_stored hh hl hfile.names).1
      obtain ⟨ss, k1, k2⟩ := Option.bind_eq_some_iff.mp h2
      have k3 := script_lines env.ff a.db a.table rws hdb htab ss k1
      obtain ⟨rs, k4, k5⟩ := exec_rows k2
      have k6 : rs = rows.map (sqlRow env.ff) := by
        rw [replaced, List.filter_nil, List.nil_append] at k5
        have hsub := latest_sublist same rs
        rw [← k5] at hsub
        refine (hsub.eq_of_length ?_).symm
        rw [List.length_map, ← all2_length g2, all2_length k3, all2_length k4]
      subst k6
      clear * - k3 k4 g2 huser hdb htab hstrict
      induction g2 generalizing ss with
      | nil => intro row hrow; cases hrow
      | @cons cs row rws rows h _ ih =>
        cases k3 with
        | cons p1 p2 =>
          rw [List.map_cons] at k4
          cases k4 with
          | cons q1 q2 =>
            intro row' hrow'
            rcases List.mem_cons.mp hrow' with rfl | hrow'
            · obtain ⟨_, _, v1⟩ := stmt_reads env.ff a.db a.table cs hdb htab _ p1
              refine seen_restored env.ff ?_ h.2 v1 (assignedRow_denotes hstrict h.2 v1 q1)
              rw [← huser]
              exact user_mtypes h.1
            · exact ih _ p2 q2 row' hrow'
  · intro h
    obtain ⟨lines, h1, h2⟩ := C57_command_partial env a sys ibd trs crs irs frs t r l defs deleted rows hsys hibd hdict ht hname hl hfile hop harr hh hmark
      hcompact hredundant h hdb htab []
    refine ⟨lines, by simpa using h1, ?_⟩
    rw [exec_printed same h2 (fun row hrow => all2_imp (fun c x h v hv => (h v hv).1) (hfile.typed row hrow)) hr [], replaced, latest_distinct hd]
    rfl

/-- The rows (1, 'NULL') and (2, NULL): the output, executed, does not give them back. -/
example : ¬ ∃ lines, fromDataFile testEnv (shopArgs (b! "NULL") false) [] = .ok () lines ∧
    execScript anyServer [shopId, shopName] sameFirst (b! "shop") (b! "t") (stdout lines) [] =
      some [[.int 1, .text (b! "NULL")], [.int 2, .null]] := by
  have hn : ShopRow (b! "NULL") := .inr rfl
  intro h
  have := (C72_iff testEnv (shopArgs (b! "NULL") false) _ _ _ _ _ _ ⟨b! "shop/t", 20, 5⟩ ⟨20, 30, b! "PRIMARY", 1, 3⟩ _ _ false
    (shopRows (b! "NULL") false) anyServer sameFirst rfl rfl (shop_dictionary (.inl rfl)) (by decide) (by decide) (shop_layout _ (by decide))
    (shopData_file testEnv hn false) (shop_op _ _) shop_arranged (shop_handled _ (by decide)) (shopData_marked hn false)
    (shopData_format hn false).1 (shopData_format hn false).2
    (by
      intro row hrow c hc
      rcases List.mem_cons.mp hrow with rfl | hrow
      · simp only [List.mem_cons, Option.some.injEq, List.not_mem_nil, or_false, reduceCtorEq] at hc
      · cases List.mem_singleton.mp hrow
        simp only [List.mem_cons, Option.some.injEq, List.not_mem_nil, or_false, reduceCtorEq] at hc)
    (show 96 ∉ b! "shop" by decide) (show 96 ∉ b! "t" by decide) ⟨rfl, rfl⟩ (shop_numbers _ _ _ _) (by
      show [[Orig.int 1, .text (b! "NULL")], [.int 2, .null]].Pairwise _
      decide)).mp (by
        rw [show columnsOf shopColumns 20 = [shopId, shopName] by decide]
        exact h) _ (List.mem_cons_self ..)
  rw [show columnsOf shopColumns 20 = [shopId, shopName] by decide] at this
  rcases this with _ | ⟨_, _ | ⟨h2, _⟩⟩
  exact h2.2.1 rfl

end Verif.Props
