import Verif.Props.RedoNames
/-!
# C43: which statements the redo command prints, depending on the names given
-/

namespace Verif.Props
open Verif Spec

/-- The line is no statement, or a statement for a table that the names select. -/
def Line.Selected (db name : Bytes) (l : Line) : Prop := ∀ t, l.table = some t → NameSelected db name t

instance (db name : Bytes) (l : Line) : Decidable (l.Selected db name) := by
  unfold Line.Selected NameSelected
  cases l.table with
  | none => exact isTrue nofun
  | some t => exact decidable_of_iff ((db = [] ∨ t.db = db) ∧ (name = [] ∨ t.name = name)) ⟨fun h _ e => (Option.some.inj e) ▸ h, fun h => h t rfl⟩

/-- **C43**, as stated: for given files there is a sequence of lines, such that with any names exactly those are printed that are
no UPDATE statements, or are statements for a selected table. -/
def C43_statement : Prop :=
  ∀ (env : Env) (fs : Bytes → File) (a : FromRedo) (spare : Nat) (out : Out), ∃ (c : R Unit Unit) (ls : List Line),
    (∀ l ∈ ls, ∃ s, parseDictPage env a.sysFile { out := out } = .ok none s ∧ l.Proper s.tables) ∧
    ∀ (db name : Bytes), fromRedoFile env fs { a with db := db, table := name } spare out =
      withOutput c (out ++ (ls.filter fun l => decide (l.Selected db name)).map Line.text)

theorem passes_selected {db name : Bytes} (h : db = [] ∨ name = []) (l : Line) : l.Passes db name ↔ l.Selected db name := by
  constructor
  · intro hp t ht
    rcases hp t ht with h1 | ⟨h1, h2⟩
    · exact h1
    · rcases h with h | h
      · exact ⟨.inl h, .inr h2⟩
      · exact absurd h h1
  · intro hs t ht
    exact .inl (hs t ht)

/-- **C43**, in part: true if only one of the names is given, or none.  Missing: both names given (`C43_false`, `C43_exact`). -/
theorem C43_one_name_partial (env : Env) (fs : Bytes → File) (a : FromRedo) (spare : Nat) (out : Out) : ∃ (c : R Unit Unit) (ls : List Line),
    (∀ l ∈ ls, ∃ s, parseDictPage env a.sysFile { out := out } = .ok none s ∧ l.Proper s.tables) ∧
    ∀ (db name : Bytes), db = [] ∨ name = [] → fromRedoFile env fs { a with db := db, table := name } spare out =
      withOutput c (out ++ (ls.filter fun l => decide (l.Selected db name)).map Line.text) := by
  obtain ⟨c, ls, h1, h2⟩ := C84_command env fs a spare out
  refine ⟨c, ls, h1, fun db name h => ?_⟩
  rw [h2 db name]
  unfold printedLines
  rw [List.filter_congr fun l _ => decide_eq_decide.mpr (passes_selected h l)]

/-- **C43, exactly:** with any names, the lines printed are those that are no statements, or are statements for a selected table or
for a table of another database with the selected table name. -/
theorem C43_exact (env : Env) (fs : Bytes → File) (a : FromRedo) (spare : Nat) (out : Out) : ∃ (c : R Unit Unit) (ls : List Line),
    (∀ l ∈ ls, ∃ s, parseDictPage env a.sysFile { out := out } = .ok none s ∧ l.Proper s.tables) ∧
    ∀ (db name : Bytes), fromRedoFile env fs { a with db := db, table := name } spare out =
      withOutput c (out ++ (ls.filter fun l => decide (l.Selected db name ∨ ∃ t, l.table = some t ∧ name ≠ [] ∧ t.name = name)).map Line.text) := by
  obtain ⟨c, ls, h1, h2⟩ := C84_command env fs a spare out
  refine ⟨c, ls, h1, fun db name => ?_⟩
  rw [h2 db name]
  unfold printedLines
  rw [List.filter_congr fun l _ => decide_eq_decide.mpr ?_]
  constructor
  · intro hp
    cases ht : l.table with
    | none => exact .inl fun t h => by rw [ht] at h; cases h
    | some t =>
      rcases hp t ht with h | h
      · exact .inl fun u hu => by rw [ht] at hu; cases hu; exact h
      · exact .inr ⟨t, rfl, h⟩
  · rintro (h | ⟨t, h3, h4⟩) u hu
    · exact .inl (h u hu)
    · rw [h3] at hu
      cases hu
      exact .inr h4

/-- the statement of the shop's log -/
def shopUpdateText : Bytes := b! "update `shop`.`t` set `name`='bob' where `id`='7';"

theorem shop_update_text (spare : Nat) : fromRedoFile testEnv (shopDisk (b! "bob")) { shopRedo with db := b! "shop", table := [] } spare [] = .ok () [shopUpdateText] := by
  have hn : ShopName (b! "bob") := .inl rfl
  refine (C58_lines testEnv (shopDisk (b! "bob")) shopRedo spare (shopFile idKey) shopTables shopColumns (shopIndexes idKey) (shopFields idKey)
    [b! "ib_logfile0", b! "ib_logfile1"] (shopParts (b! "bob")) (shopLog (b! "bob")) (shopChanges (b! "bob")) rfl (shop_dictionary (.inl rfl))
    (by decide) (by decide) rfl (shop_disk hn) (shop_cut _) (shop_log_fits hn) shop_arranged (shop_followed testEnv _) (shop_ahead hn)
    (shop_log_length hn) []).trans (congrArg (R.ok ()) ?_)
  decide

theorem prefix_text {p s l : Bytes} (h : p ++ s <+: l) : p <+: l := (List.prefix_append p s).trans h

set_option maxRecDepth 4000 in
/-- **C43 is false** of the code: the statement for `shop.t` is also printed when the table `t` of the database `zoo` is asked for. -/
theorem C43_false : ¬ C43_statement := by
  intro h
  obtain ⟨c, ls, h1, h2⟩ := C84_command testEnv (shopDisk (b! "bob")) shopRedo 0 []
  obtain ⟨c', ls', h1', h2'⟩ := h testEnv (shopDisk (b! "bob")) shopRedo 0 []
  have hup : (b! "update `") <+: shopUpdateText := by decide
  -- the line of the log
  have h3 := (h2 (b! "shop") []).symm.trans (shop_update_text 0)
  have h3 : printedLines (b! "shop") [] ls = [shopUpdateText] := by
    cases c with
    | ok u v => injection h3
    | panic v => cases h3
    | hang v => cases h3
  have hm : shopUpdateText ∈ printedLines (b! "shop") [] ls := by rw [h3]; exact List.mem_singleton.mpr rfl
  obtain ⟨l, hl, ht⟩ := List.mem_map.mp hm
  obtain ⟨hl, hp⟩ := List.mem_filter.mp hl
  have hp := of_decide_eq_true hp
  obtain ⟨s, -, hpr⟩ := h1 l hl
  have hz : l.Passes (b! "zoo") (b! "t") := by
    intro t htab
    have hdb : t.db = b! "shop" := by
      rcases hp t htab with h | h
      · rcases h.1 with h | h
        · cases h
        · exact h
      · exact absurd rfl h.1
    unfold Line.Proper at hpr
    rw [htab, ht] at hpr
    have hpre := hpr.2
    rw [hdb] at hpre
    refine .inr ⟨by decide, ?_⟩
    obtain ⟨rest, hrest⟩ := hpre
    have e1 : t.name ++ b! "` set " ++ rest = b! "t` set `name`='bob' where `id`='7';" := by
      have : (b! "update `shop`.`") ++ (t.name ++ b! "` set " ++ rest) = (b! "update `shop`.`") ++ b! "t` set `name`='bob' where `id`='7';" := by
        rw [show (b! "update `shop`.`") ++ b! "t` set `name`='bob' where `id`='7';" = shopUpdateText from rfl, ← hrest]
        simp
      exact List.append_cancel_left this
    have hlen := congrArg List.length e1
    rw [List.length_append, List.length_append] at hlen
    have hk : t.name.length < 36 := by
      have : (b! "t` set `name`='bob' where `id`='7';").length = 35 := by decide
      omega
    have e2 : ((b! "t` set `name`='bob' where `id`='7';").drop t.name.length).take 6 = b! "` set " := by
      rw [← e1, List.append_assoc, List.drop_left]
      rfl
    have key : ∀ k < 36, ((b! "t` set `name`='bob' where `id`='7';").drop k).take 6 = b! "` set " → k = 1 := by decide
    have hk1 := key _ hk e2
    have e3 : t.name = (b! "t` set `name`='bob' where `id`='7';").take t.name.length := by
      rw [← e1, List.append_assoc, List.take_left]
    rw [e3, hk1]
    rfl
  -- it is printed for the table of the other database
  have h4 := (h2 (b! "zoo") (b! "t")).symm.trans (h2' (b! "zoo") (b! "t"))
  have h4 : printedLines (b! "zoo") (b! "t") ls = (ls'.filter fun l => decide (l.Selected (b! "zoo") (b! "t"))).map Line.text := by
    cases c <;> cases c' <;> injection h4
  have h5 : shopUpdateText ∈ printedLines (b! "zoo") (b! "t") ls := by
    rw [← ht]
    exact List.mem_map.mpr ⟨l, List.mem_filter.mpr ⟨hl, decide_eq_true hz⟩, rfl⟩
  rw [h4] at h5
  obtain ⟨l', hl', ht'⟩ := List.mem_map.mp h5
  obtain ⟨hl', hs'⟩ := List.mem_filter.mp hl'
  have hs' := of_decide_eq_true hs'
  obtain ⟨s', -, hpr'⟩ := h1' l' hl'
  unfold Line.Proper at hpr'
  cases htab : l'.table with
  | none =>
    rw [htab, ht'] at hpr'
    exact hpr' hup
  | some t =>
    rw [htab, ht'] at hpr'
    have hdb : t.db = b! "zoo" := (hs' t htab).1.resolve_left (by decide)
    have := hpr'.2
    rw [hdb, List.append_assoc, List.append_assoc] at this
    exact absurd (prefix_text this) (by decide)

end Verif.Props
