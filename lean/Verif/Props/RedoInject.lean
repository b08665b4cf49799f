import Verif.Props.Inject
import Verif.Props.RedoWitness
/-!
# C90: values stay inside their literals in the statements of the redo command
-/

set_option linter.unusedSimpArgs false

namespace Verif.Props
open Verif Spec

/-! ## The statement -/

/-- The line is one UPDATE statement: nothing stands outside of literals and quoted names but the words of the statement, with `n` assignments
and `m` conditions. -/
def IsOneUpdate (n m : Nat) (line : Bytes) : Prop :=
  ∃ sets conds : List Bytes, sets.length = n ∧ conds.length = m ∧ (∀ s ∈ sets, s = b! "``=''" ∨ s = b! "``=NULL") ∧ (∀ c ∈ conds, c = b! "``=''") ∧
    outside .text line = some (b! "update ``.`` set " ++ joinSep (b! " and ") sets ++ b! " where " ++ joinSep (b! " and ") conds ++ b! ";")

/-- Whatever the log files are: if the command ends normally, each line that it printed is one UPDATE statement. -/
def C90_statement : Prop :=
  ∀ (env : Env) (fs : Bytes → File) (a : FromRedo) (spare : Nat) (out lines : Out), fromRedoFile env fs a spare out = .ok () (out ++ lines) →
    ∀ line ∈ lines, ∃ n m, IsOneUpdate n m line

/-! ## Values that keep inside -/

/-- The text holds no quote that ends a literal, and no backslash at its end: inside of a literal it is all part of the literal. -/
def Enclosed : Bytes → Prop
  | 92 :: _ :: t => Enclosed t
  | 92 :: [] => False
  | 39 :: _ => False
  | _ :: t => Enclosed t
  | [] => True

theorem enclosed_esc (c : UInt8) (t : Bytes) : Enclosed (92 :: c :: t) = Enclosed t := by rw [Enclosed.eq_def]; rfl
theorem enclosed_plain (c : UInt8) (t : Bytes) (h1 : c ≠ 92) (h2 : c ≠ 39) : Enclosed (c :: t) = Enclosed t := by
  rw [Enclosed.eq_def]
  split <;> simp_all

/-- enclosed texts keep inside the literal that they are printed in -/
theorem outside_enclosed_aux : ∀ (k : Nat) (v : Bytes), v.length ≤ k → Enclosed v → ∀ t, outside .string (v ++ 39 :: t) = (outside .text t).map (39 :: ·) := by
  intro k
  induction k with
  | zero =>
    intro v hv _ t
    cases List.length_eq_zero_iff.mp (Nat.le_zero.mp hv)
    exact outside_str_end t
  | succ k ih =>
    intro v hv h t
    cases v with
    | nil => exact outside_str_end t
    | cons c v =>
      have hv' : v.length ≤ k := by simpa using hv
      by_cases hc : c = 92
      · subst hc
        cases v with
        | nil => exact h.elim
        | cons d v =>
          rw [enclosed_esc] at h
          show outside .string (92 :: d :: (v ++ 39 :: t)) = _
          rw [outside_str_esc]
          exact ih v (by simp at hv'; omega) h t
      · by_cases hq : c = 39
        · subst hq; exact h.elim
        · rw [enclosed_plain c v hc hq] at h
          show outside .string (c :: (v ++ 39 :: t)) = _
          rw [outside_str_plain c _ hc hq]
          exact ih v hv' h t

theorem Shape.raw {v : Bytes} (h : Enclosed v) : Shape (b! "'" ++ v ++ b! "'") (b! "''") := by
  intro t
  have e : b! "'" ++ v ++ b! "'" ++ t = 39 :: (v ++ 39 :: t) := by simp
  have : outside .text (39 :: (v ++ 39 :: t)) = (outside .string (v ++ 39 :: t)).map (39 :: ·) := by rw [outside.eq_def]; rfl
  rw [e, this, outside_enclosed_aux _ v (Nat.le_refl _) h]
  cases outside .text t <;> rfl

theorem enclosed_of_plain : ∀ {v : Bytes}, 39 ∉ v → 92 ∉ v → Enclosed v
  | [], _, _ => trivial
  | c :: v, h1, h2 => by
    rw [enclosed_plain c v (fun e => h2 (by simp [e])) (fun e => h1 (by simp [e]))]
    exact enclosed_of_plain (fun e => h1 (by simp [e])) (fun e => h2 (by simp [e]))

theorem shape_assign {name v : Bytes} (hn : 96 ∉ name) (hv : Enclosed v) : Shape (assignText (name, some v)) (b! "``=''") := by
  have := ((Shape.name hn).append (Shape.plain (s := b! "=") (by decide))).append (Shape.raw hv)
  have e : assignText (name, some v) = b! "`" ++ name ++ b! "`" ++ b! "=" ++ (b! "'" ++ v ++ b! "'") := by simp [assignText]
  rw [e]
  exact this

theorem shape_null {name : Bytes} (hn : 96 ∉ name) : Shape (assignText (name, none)) (b! "``=NULL") := by
  have := (Shape.name hn).append (Shape.plain (s := b! "=NULL") (by decide))
  have e : assignText (name, none) = b! "`" ++ name ++ b! "`" ++ b! "=NULL" := by simp [assignText]
  rw [e]
  exact this

theorem shape_nil : Shape [] [] := by
  intro t
  rw [List.nil_append]
  cases outside .text t <;> rfl

theorem shape_join {xs shapes : List Bytes} (h : All2 Shape xs shapes) : Shape (joinSep (b! " and ") xs) (joinSep (b! " and ") shapes) := by
  induction h with
  | nil => exact shape_nil
  | cons h1 h2 ih =>
    cases h2 with
    | nil => exact h1
    | cons h3 h4 => exact (h1.append (Shape.plain (s := b! " and ") (by decide))).append ih

theorem shapes_of {α : Type} (f : α → Bytes) (P : Bytes → Prop) : ∀ (l : List α), (∀ x ∈ l, ∃ s, P s ∧ Shape (f x) s) →
    ∃ shapes : List Bytes, shapes.length = l.length ∧ (∀ s ∈ shapes, P s) ∧ All2 Shape (l.map f) shapes
  | [], _ => ⟨[], rfl, nofun, .nil⟩
  | x :: l, h => by
    obtain ⟨s, h1, h2⟩ := h x (by simp)
    obtain ⟨ss, h3, h4, h5⟩ := shapes_of f P l fun y hy => h y (by simp [hy])
    exact ⟨s :: ss, by simp [h3], by simpa using ⟨h1, h4⟩, .cons h2 h5⟩

theorem update_shape {db table : Bytes} {sets : List (Bytes × Option Bytes)} {conds : List (Bytes × Bytes)} (hdb : 96 ∉ db) (ht : 96 ∉ table)
    {ss cs : List Bytes} (hs : All2 Shape (sets.map assignText) ss) (hc : All2 Shape (conds.map fun c => assignText (c.1, some c.2)) cs) :
    outside .text (updateText (b! " and ") db table sets conds) =
      some (b! "update ``.`` set " ++ joinSep (b! " and ") ss ++ b! " where " ++ joinSep (b! " and ") cs ++ b! ";") := by
  have h := ((((((((Shape.plain (s := b! "update ") (by decide)).append (Shape.name hdb)).append (Shape.plain (s := b! ".") (by decide))).append
    (Shape.name ht)).append (Shape.plain (s := b! " set ") (by decide))).append (shape_join hs)).append
    (Shape.plain (s := b! " where ") (by decide))).append (shape_join hc)).append (Shape.plain (s := b! ";") (by decide)) []
  have e : updateText (b! " and ") db table sets conds = b! "update " ++ (b! "`" ++ db ++ b! "`") ++ b! "." ++ (b! "`" ++ table ++ b! "`") ++ b! " set " ++
      joinSep (b! " and ") (sets.map assignText) ++ b! " where " ++ joinSep (b! " and ") (conds.map fun c => assignText (c.1, some c.2)) ++ b! ";" ++ [] := by
    simp [updateText]
  rw [e, h]
  have : outside .text [] = some [] := rfl
  rw [this, Option.map_some, List.append_nil]
  simp

/-- what a change must be like: no name holds a backtick, and the values keep inside their literals -/
structure Contained (ff : FloatFmt) (ch : Change) : Prop where
  names : 96 ∉ ch.db ∧ 96 ∉ ch.table
  sets : ∀ s ∈ ch.sets, 96 ∉ s.1 ∧ ∀ v, s.2 = some v → Enclosed (v.lit ff)
  key : ∀ k ∈ ch.key, 96 ∉ k.1 ∧ Enclosed (k.2.lit ff)

theorem contained_one {ff : FloatFmt} {ch : Change} (h : Contained ff ch) : IsOneUpdate ch.sets.length ch.key.length (ch.text ff) := by
  obtain ⟨ss, l1, p1, a1⟩ := shapes_of (fun s : Bytes × Option TVal => assignText (s.1, s.2.map (TVal.lit ff))) (fun s => s = b! "``=''" ∨ s = b! "``=NULL") ch.sets (by
    rintro ⟨n, v⟩ hs
    obtain ⟨h1, h2⟩ := h.sets _ hs
    cases v with
    | none => exact ⟨_, .inr rfl, shape_null h1⟩
    | some v => exact ⟨_, .inl rfl, shape_assign h1 (h2 v rfl)⟩)
  obtain ⟨cs, l2, p2, a2⟩ := shapes_of (fun k : Bytes × TVal => assignText (k.1, some (k.2.lit ff))) (fun s => s = b! "``=''") ch.key (by
    rintro k hk
    obtain ⟨h1, h2⟩ := h.key _ hk
    exact ⟨_, rfl, shape_assign h1 h2⟩)
  refine ⟨ss, cs, l1, l2, p1, p2, update_shape h.names.1 h.names.2 ?_ ?_⟩
  · rw [List.map_map]; exact a1
  · rw [List.map_map]; exact a2

/-! ## The claim -/

/-- Part of C90: for logs that are followed, if no value of a change that is printed can leave its literal, each line is one statement,
with an assignment for each old value and a condition for each column of the key. -/
theorem C90_contained_partial (env : Env) (fs : Bytes → File) (a : FromRedo) (spare : Nat) (sys : Bytes) (trs : List TableRow) (crs : List ColumnRow)
    (irs : List IndexRow) (frs : List FieldRow) (names : List Bytes) (parts : List (List Bytes)) (its : List Item) (chs : List (Option Change))
    (hsys : a.sysFile = .ok sys) (hdict : Dictionary sys trs crs irs frs) (hne : names ≠ []) (hn : ∀ n ∈ names, 44 ∉ n)
    (ha : a.redoFile = commaList names) (hp : All2 (fun chunks n => ∃ content, fs n = .ok content ∧ IsLogFile chunks content) parts names)
    (hs : parts.flatten.flatten = its.flatMap Item.enc) (hf : ∀ it ∈ its, it.Fits)
    (harr : ∀ t ∈ trs, UsualKeys irs frs crs t.id) (hfl : All2 (Followed env a trs crs irs frs) its chs)
    (hah : Ahead its) (hlen : (its.flatMap Item.enc).length < 2 ^ 32)
    (hcon : ∀ ch, some ch ∈ chs → Wanted a ch = true → Contained env.ff ch) (out : Out) :
    ∃ lines, fromRedoFile env fs a spare out = .ok () (out ++ lines) ∧
      All2 (fun line ch => IsOneUpdate ch.sets.length ch.key.length line) lines ((chs.filterMap id).filter (Wanted a)) := by
  refine ⟨_, C58_lines env fs a spare sys trs crs irs frs names parts its chs hsys hdict hne hn ha hp hs hf harr hfl hah hlen out, ?_⟩
  have hu : ∀ ch ∈ (chs.filterMap id).filter (Wanted a), Contained env.ff ch := by
    intro ch hch
    obtain ⟨hm, hw⟩ := List.mem_filter.mp hch
    obtain ⟨x, hx, rfl⟩ := List.mem_filterMap.mp hm
    exact hcon ch hx hw
  generalize (chs.filterMap id).filter (Wanted a) = l at hu
  clear * - hu
  induction l with
  | nil => exact .nil
  | cons ch l ih => exact .cons (contained_one (hu ch (by simp))) (ih fun c hc => hu c (by simp [hc]))

/-- the hypotheses hold for a log of a changed row -/
example (env : Env) (spare : Nat) (out : Out) : ∃ lines, fromRedoFile env (shopDisk (b! "bob")) shopRedo spare out = .ok () (out ++ lines) ∧
    All2 (fun line (ch : Change) => IsOneUpdate ch.sets.length ch.key.length line) lines [shopChange (b! "bob")] :=
  C90_contained_partial env _ shopRedo spare (shopFile idKey) shopTables shopColumns (shopIndexes idKey) (shopFields idKey) [b! "ib_logfile0", b! "ib_logfile1"]
    (shopParts (b! "bob")) (shopLog (b! "bob")) (shopChanges (b! "bob")) rfl (shop_dictionary (.inl rfl)) (by decide) (by decide) rfl (shop_disk (.inl rfl))
    (shop_cut _) (shop_log_fits (.inl rfl)) shop_arranged (shop_followed env _) (shop_ahead (.inl rfl)) (shop_log_length (.inl rfl)) (by
      intro ch hch _
      simp only [shopChanges, List.mem_cons, List.not_mem_nil, or_false, reduceCtorEq, false_or, or_self, Option.some.injEq] at hch
      subst hch
      refine ⟨by decide, ?_, ?_⟩
      · intro s hs
        cases List.mem_singleton.mp hs
        refine ⟨by decide, ?_⟩
        rintro v ⟨⟩
        exact enclosed_of_plain (by show 39 ∉ b! "bob"; decide) (by show 92 ∉ b! "bob"; decide)
      · intro k hk
        cases List.mem_singleton.mp hk
        exact ⟨by decide, enclosed_of_plain (by show 39 ∉ intText 7; decide) (by show 92 ∉ intText 7; decide)⟩) out

/-- Any text without quotes can be brought out of a literal: for a change of one VARCHAR column whose old value was `'; `, the text, `; select '`, the
line holds the text as a statement of its own. -/
theorem C90_injects (ff : FloatFmt) (db table name : Bytes) (key : List (Bytes × TVal)) (stmt : Bytes) (hdb : 96 ∉ db) (ht : 96 ∉ table) (hn : 96 ∉ name)
    (hk : ∀ k ∈ key, 96 ∉ k.1 ∧ Enclosed (k.2.lit ff)) (hs : ∀ c ∈ stmt, c ≠ 39 ∧ c ≠ 96) :
    ∃ rest, outside .text (Change.text ff ⟨db, table, [(name, some (.varchar (b! "'; " ++ stmt ++ b! "; select '")))], key⟩) =
      some (b! "update ``.`` set ``=''; " ++ stmt ++ b! "; select '' where " ++ rest) := by
  obtain ⟨cs, _, _, a2⟩ := shapes_of (fun k : Bytes × TVal => assignText (k.1, some (k.2.lit ff))) (fun s => s = b! "``=''") key (by
    rintro k hk'
    obtain ⟨h1, h2⟩ := hk _ hk'
    exact ⟨_, rfl, shape_assign h1 h2⟩)
  have hq : Shape (b! "''") (b! "''") := Shape.raw (v := []) trivial
  have hset : Shape (assignText (name, some (b! "'; " ++ stmt ++ b! "; select '"))) (b! "``=''; " ++ stmt ++ b! "; select ''") := by
    have h := (((((Shape.name hn).append (Shape.plain (s := b! "=") (by decide))).append hq).append (Shape.plain (s := b! "; ") (by decide))).append
      (Shape.plain hs)).append ((Shape.plain (s := b! "; select ") (by decide)).append hq)
    have e : assignText (name, some (b! "'; " ++ stmt ++ b! "; select '")) =
        b! "`" ++ name ++ b! "`" ++ b! "=" ++ b! "''" ++ b! "; " ++ stmt ++ (b! "; select " ++ b! "''") := by simp [assignText]
    have e2 : b! "``=''; " ++ stmt ++ b! "; select ''" = b! "``" ++ b! "=" ++ b! "''" ++ b! "; " ++ stmt ++ (b! "; select " ++ b! "''") := by simp
    rw [e, e2]
    exact h
  refine ⟨joinSep (b! " and ") cs ++ b! ";", ?_⟩
  have h := update_shape (sets := [(name, some (b! "'; " ++ stmt ++ b! "; select '"))]) (conds := key.map fun k => (k.1, k.2.lit ff)) hdb ht (.cons hset .nil)
    (by rw [List.map_map]; exact a2)
  refine Eq.trans h ?_
  simp [joinSep]

/-- The command does print such lines. -/
theorem C90_drops (env : Env) (spare : Nat) (out : Out) :
    ∃ line, fromRedoFile env (shopDisk (b! "'; drop table t; select '")) shopRedo spare out = .ok () (out ++ [line]) ∧
      outside .text line = some (b! "update ``.`` set ``=''; drop table t; select '' where ``='';") := by
  have hn : ShopName (b! "'; drop table t; select '") := .inr (.inr rfl)
  refine ⟨b! "update `shop`.`t` set `name`=''; drop table t; select '' where `id`='7';",
    C58_lines env _ shopRedo spare (shopFile idKey) shopTables shopColumns (shopIndexes idKey) (shopFields idKey) [b! "ib_logfile0", b! "ib_logfile1"]
    (shopParts _) (shopLog _) (shopChanges _) rfl (shop_dictionary (.inl rfl)) (by decide) (by decide) rfl (shop_disk hn)
    (shop_cut _) (shop_log_fits hn) shop_arranged (shop_followed env _) (shop_ahead hn) (shop_log_length hn) out, by decide⟩

theorem count_join (sep : Bytes) (c : UInt8) (hs : c ∉ sep) : ∀ xs : List Bytes, (∀ x ∈ xs, c ∉ x) → c ∉ joinSep sep xs
  | [], _ => by simp [joinSep]
  | [x], h => h x (by simp)
  | x :: y :: xs, h => by
    have := count_join sep c hs (y :: xs) fun z hz => h z (by simp [hz])
    simp only [joinSep, List.mem_append, not_or]
    exact ⟨⟨h x (by simp), hs⟩, this⟩

/-- C90 is false of the code. -/
theorem C90_false : ¬ C90_statement := by
  intro h
  obtain ⟨line, h1, h2⟩ := C90_drops testEnv 0 []
  obtain ⟨n, m, ss, cs, _, _, p1, p2, h3⟩ := h testEnv _ shopRedo 0 [] [line] h1 line (by simp)
  rw [h2] at h3
  have e := congrArg (fun o : Option Bytes => (o.getD []).count 59) h3
  have hss : (joinSep (b! " and ") ss).count 59 = 0 := List.count_eq_zero.mpr (count_join _ _ (by decide) ss (by
    intro s hs
    rcases p1 s hs with rfl | rfl <;> decide))
  have hcs : (joinSep (b! " and ") cs).count 59 = 0 := List.count_eq_zero.mpr (count_join _ _ (by decide) cs (by
    intro s hs
    rw [p2 s hs]
    decide))
  simp only [Option.getD_some, List.count_append, hss, hcs] at e
  exact absurd e (by decide)

end Verif.Props
