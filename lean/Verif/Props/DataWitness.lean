import Verif.Props.DictWitness
import Verif.Props.DataCommand
/-!
# C57: the data file of a table

The table of `DictWitness` with the primary key `id`: one page with the rows `(1, name)` and `(2, NULL)`, and the deleted row `(3, 'bob')`.
-/

set_option linter.unusedSimpArgs false

namespace Verif.Props
open Verif Spec

def shopDefs : List ColDef := [⟨.int 4, false⟩, ⟨.system 6, false⟩, ⟨.system 7, false⟩, ⟨.varchar 30, true⟩]

def shopCells (id : Nat) (name : Option Bytes) : List Cell :=
  [cellOfVal (some (.int 4 id)), .val (zeros 6), .val (zeros 7), cellOfVal (name.map .varchar)]

/-- the first bytes of a COMPACT leaf page of the index 30, up to the supremum record: head of the free list and first record -/
def shopTop (free first : Nat) : Bytes :=
  zeros 4 ++ beEnc 4 3 ++ zeros 16 ++ beEnc 2 17855 ++ zeros 16 ++ beEnc 2 (32768 + 5) ++ beEnc 2 free ++ beEnc 2 27 ++ zeros 18 ++ beEnc 8 30 ++
    zeros 23 ++ beEnc 2 (first - 99) ++ zeros 21

def shopRec (id : Nat) (name : Option Bytes) (next : Nat) : Bytes :=
  newRecord (rowOf shopDefs (shopCells id name)) next ++ rowData (rowOf shopDefs (shopCells id name))

def shopDataPage (name : Bytes) : Bytes :=
  shopTop (174 + name.length) 127 ++ shopRec 1 (some name) (23 + name.length) ++
    shopRec 2 none (65536 + 112 - (150 + name.length)) ++ shopRec 3 (some (b! "bob")) 0

def shopData (name : Bytes) : Bytes := ([shopDataPage name].map pad).flatten

/-- the names considered -/
def ShopRow (name : Bytes) : Prop := name = b! "ann" ∨ name = b! "NULL"

def shopRows (name : Bytes) (deleted : Bool) : List (List (Option TVal)) :=
  if deleted then [[some (.int 4 3), some (.varchar (b! "bob"))]] else [[some (.int 4 1), some (.varchar name)], [some (.int 4 2), none]]

set_option maxRecDepth 4000 in
theorem shopData_length {name : Bytes} (hn : ShopRow name) : 190 ≤ (shopDataPage name).length ∧ (shopDataPage name).length ≤ 300 := by
  rcases hn with rfl | rfl <;> decide

theorem shopData_pages {name : Bytes} (hn : ShopRow name) : filePages (shopData name) = [pad (shopDataPage name)] := by
  refine images_flatten _ ?_ ?_
  · intro d hd
    cases List.mem_singleton.mp hd
    exact pad_length _ (by have := shopData_length hn; omega)
  · simp

theorem shopData_field {name : Bytes} (hn : ShopRow name) (f : Nat × Nat) (h : f.1 + f.2 ≤ 190) :
    field (pad (shopDataPage name)) f = field (shopDataPage name) f :=
  numAt_pad _ _ _ (by have := shopData_length hn; omega)

set_option maxRecDepth 8000 in
theorem shopData_fields {name : Bytes} (hn : ShopRow name) : field (shopDataPage name) FIL_PAGE_TYPE = FIL_PAGE_INDEX ∧
    field (shopDataPage name) PAGE_LEVEL = 0 ∧ field (shopDataPage name) PAGE_INDEX_ID = 30 ∧ field (shopDataPage name) PAGE_MAX_TRX_ID = 0 ∧
    field (shopDataPage name) PAGE_FREE = 174 + name.length ∧ field (shopDataPage name) PAGE_GARBAGE = 27 ∧ isCompact (shopDataPage name) = true := by
  rcases hn with rfl | rfl <;> decide

theorem shopData_compact {name : Bytes} (hn : ShopRow name) : isCompact (pad (shopDataPage name)) = true := by
  rw [← (shopData_fields hn).2.2.2.2.2.2]
  unfold isCompact
  rw [numAt_pad _ 42 2 (by have := shopData_length hn; omega)]

theorem shopData_leaf {name : Bytes} (hn : ShopRow name) (deleted : Bool) : leafPages (shopData name) 30 deleted = [pad (shopDataPage name)] := by
  obtain ⟨h1, h2, h3, _, h5, _⟩ := shopData_fields hn
  unfold leafPages
  rw [shopData_pages hn, List.filter_cons_of_pos]
  · rfl
  · rw [shopData_field hn _ (by decide), shopData_field hn _ (by decide), shopData_field hn _ (by decide), shopData_field hn _ (by decide),
      h1, h2, h3, h5]
    simp

theorem shopData_marked {name : Bytes} (hn : ShopRow name) (deleted : Bool) : Marked (shopData name) 30 deleted where
  trx := by
    intro d hd _ _
    rw [shopData_pages hn] at hd
    cases List.mem_singleton.mp hd
    rw [shopData_field hn _ (by decide), shopData_field hn _ (by decide), (shopData_fields hn).2.2.1, (shopData_fields hn).2.2.2.1]
    simp
  garbage := by
    intro _ d hd
    rw [shopData_leaf hn] at hd
    cases List.mem_singleton.mp hd
    rw [shopData_field hn _ (by decide), (shopData_fields hn).2.2.2.2.2.1]
    decide

set_option maxRecDepth 8000 in
theorem shopData_links {name : Bytes} (hn : ShopRow name) : link (shopDataPage name) 99 = 28 ∧
    link (shopDataPage name) 127 = 23 + name.length ∧ link (shopDataPage name) (150 + name.length) = 65536 + 112 - (150 + name.length) ∧
    link (shopDataPage name) (174 + name.length) = 0 := by
  rcases hn with rfl | rfl <;> decide

theorem shopData_follow {name : Bytes} (hn : ShopRow name) {o n : Nat} (h2 : 2 ≤ o) (ho : o ≤ 190) (h : link (shopDataPage name) o = n) :
    link (pad (shopDataPage name)) o = n := by
  rw [link_pad _ _ (by have := shopData_length hn; omega) h2, h]

theorem shopRow_length {name : Bytes} (hn : ShopRow name) : name.length ≤ 4 := by
  rcases hn with rfl | rfl <;> decide

theorem shopData_records {name : Bytes} (hn : ShopRow name) (deleted : Bool) :
    Records deleted (pad (shopDataPage name)) (if deleted then [174 + name.length] else [127, 150 + name.length]) := by
  obtain ⟨h1, h2, h3, h4⟩ := shopData_links hn
  have hl := shopRow_length hn
  unfold Records
  rw [shopData_compact hn]
  cases deleted with
  | true =>
    show FreeList _ true _ [174 + name.length]
    rw [shopData_field hn _ (by decide), (shopData_fields hn).2.2.2.2.1]
    refine .last ⟨?_, ?_⟩ (shopData_follow hn (by omega) (by omega) h4)
    · show 112 < _; omega
    · omega
  | false =>
    show Linked _ true 99 [127, 150 + name.length]
    have f1 : follow (pad (shopDataPage name)) true 99 = 127 := by
      unfold follow
      rw [shopData_follow hn (by omega) (by omega) h1]; rfl
    have f2 : follow (pad (shopDataPage name)) true 127 = 150 + name.length := by
      unfold follow
      rw [shopData_follow hn (by omega) (by omega) h2, if_pos rfl]; omega
    have f3 : follow (pad (shopDataPage name)) true (150 + name.length) = 112 := by
      unfold follow
      rw [shopData_follow hn (by omega) (by omega) h3, if_pos rfl]; omega
    have l3 : Linked (pad (shopDataPage name)) true (150 + name.length) [] := .last (by rw [f3]; rfl)
    have l2 : Linked (pad (shopDataPage name)) true 127 [150 + name.length] := by
      rw [← f2]
      exact .next (by rw [f2]; exact ⟨show 112 < _ by omega, by omega⟩) (by rw [f2]; exact l3)
    rw [← f1]
    exact .next (by rw [f1]; decide) (by rw [f1]; exact l2)

/-- a record of the page -/
theorem shopData_row {name : Bytes} {o id next n : Nat} {x : Option Bytes}
    (hn : n = (newRecord (rowOf shopDefs (shopCells id x)) next).length) (hs : Storable shopDefs (shopCells id x)) (ho : n < o)
    (hd : o + (rowData (rowOf shopDefs (shopCells id x))).length ≤ (shopDataPage name).length) (hl : (shopDataPage name).length ≤ 300)
    (h : sub (shopDataPage name) (o - n) (n + (rowData (rowOf shopDefs (shopCells id x))).length) = shopRec id x next) :
    CompactRow (pad (shopDataPage name)) shopDefs o (shopCells id x) ∧
      o + (rowData (rowOf shopDefs (shopCells id x))).length ≤ 16384 - 8 :=
  ⟨⟨hs, compactAt_pad (compactAt_of_sub _ o _ next n hn ho hd h)⟩, by omega⟩

set_option maxRecDepth 8000 in
theorem shopData_holds {name : Bytes} (hn : ShopRow name) (deleted : Bool) : PageHolds shopDefs deleted (pad (shopDataPage name))
    (if deleted then [shopCells 3 (some (b! "bob"))] else [shopCells 1 (some name), shopCells 2 none]) := by
  refine .compact (shopData_compact hn) (shopData_records hn deleted) ?_
  have hl := (shopData_length hn).2
  cases deleted with
  | true =>
    refine .cons (shopData_row (n := 7) (next := 0) (by decide) (by decide) ?_ ?_ hl ?_) .nil <;> rcases hn with rfl | rfl <;> decide
  | false =>
    refine .cons (shopData_row (n := 7) (next := 23 + name.length) ?_ ?_ ?_ ?_ hl ?_)
      (.cons (shopData_row (n := 6) (next := 65536 + 112 - (150 + name.length)) ?_ ?_ ?_ ?_ hl ?_) .nil) <;>
    rcases hn with rfl | rfl <;> decide

theorem shopData_stores (id : Nat) (x : Option Bytes) : All2 (Stores (shopLayout 20) (shopCells id x)) (columnsOf shopColumns 20)
    [some (.int 4 id), x.map .varchar] :=
  .cons ⟨0, rfl, rfl⟩ (.cons ⟨3, rfl, rfl⟩ .nil)

theorem shopData_file (env : Env) {name : Bytes} (hn : ShopRow name) (deleted : Bool) :
    TableFile env (shopData name) 30 (columnsOf shopColumns 20) (shopLayout 20) shopDefs deleted (shopRows name deleted) where
  names := by decide
  bits := by decide
  desc := by decide
  pages := by
    refine ⟨[shopRows name deleted], by simp, ?_⟩
    rw [shopData_leaf hn]
    refine .cons ⟨_, shopData_holds hn deleted, ?_⟩ .nil
    cases deleted with
    | true => exact .cons (shopData_stores 3 (some (b! "bob"))) .nil
    | false => exact .cons (shopData_stores 1 (some name)) (.cons (shopData_stores 2 none) .nil)
  typed := by
    have h : ∀ (id : Nat) (x : Option Bytes), id < 4 → All2 (fun c x => ∀ v : TVal, x = some v → v.Of c ∧ v.Fits env.zone) (columnsOf shopColumns 20)
        [some (.int 4 id), x.map .varchar] := by
      intro id x hid
      have e : columnsOf shopColumns 20 = [shopId, shopName] := by decide
      rw [e]
      refine .cons ?_ (.cons ?_ .nil)
      · rintro v ⟨⟩
        refine ⟨⟨rfl, by decide, by decide, rfl, rfl⟩, by decide, ?_, ?_⟩ <;> simp
        omega
      · intro v hv
        cases x with
        | none => cases hv
        | some x => cases hv; exact ⟨rfl, trivial⟩
    intro row hrow
    cases deleted with
    | true =>
      cases List.mem_singleton.mp hrow
      exact h 3 (some (b! "bob")) (by decide)
    | false =>
      rcases List.mem_cons.mp hrow with rfl | hrow
      · exact h 1 (some name) (by decide)
      · cases List.mem_singleton.mp hrow
        exact h 2 none (by decide)

def shopArgs (name : Bytes) (deleted : Bool) : FromData :=
  { sysFile := .ok (shopFile idKey), tableFile := .ok (shopData name), db := b! "shop", table := b! "t",
    opType := if deleted then b! "RecoveryData" else b! "RecoveryStruct" }

theorem shop_dictionary {key : Bytes × Bytes} (hk : ShopKey key) :
    Dictionary (shopFile key) shopTables shopColumns (shopIndexes key) (shopFields key) where
  file := shop_system hk
  indexes := by rcases hk with rfl | rfl | rfl <;> decide
  ids := by decide
  names := ⟨by decide, fun t ht => by
    cases List.mem_singleton.mp ht
    exact .inr ⟨b! "shop", b! "t", by decide, by decide, by decide, by decide⟩⟩

theorem shop_op (name : Bytes) (deleted : Bool) : deleted = true ↔ (shopArgs name deleted).opType = b! "RecoveryData" := by
  cases deleted <;> simp [shopArgs]

theorem shopData_format {name : Bytes} (hn : ShopRow name) (deleted : Bool) :
    (∀ d ∈ leafPages (shopData name) 30 deleted, isCompact d = true → ∀ k ∈ shopDefs, k.kind.Readable) ∧
    ∀ d ∈ leafPages (shopData name) 30 deleted, isCompact d = false →
      (∀ k ∈ shopDefs, ∀ m, k.kind = .varcharLatin1 m → m = 0) ∧ ∀ row ∈ shopRows name deleted, none ∉ row := by
  refine ⟨fun _ _ _ => by decide, fun d hd hc => ?_⟩
  rw [shopData_leaf hn] at hd
  cases List.mem_singleton.mp hd
  rw [shopData_compact hn] at hc
  cases hc

/-- The hypotheses of `C57_command_partial` hold: for the rows of the table, and for the deleted row. -/
theorem shop_command (env : Env) (deleted : Bool) (out : Out) :
    ∃ lines, fromDataFile env (shopArgs (b! "ann") deleted) out = .ok () (out ++ lines) ∧
      All2 (Printed env.ff (b! "shop") (b! "t")) lines
        (if deleted then [[some (.int 4 3), some (.varchar (b! "bob"))]]
          else [[some (.int 4 1), some (.varchar (b! "ann"))], [some (.int 4 2), none]]) :=
  C57_command_partial env (shopArgs (b! "ann") deleted) _ _ _ _ _ _ ⟨b! "shop/t", 20, 5⟩ ⟨20, 30, b! "PRIMARY", 1, 3⟩ _ _ deleted
    (shopRows (b! "ann") deleted) rfl rfl (shop_dictionary (.inl rfl)) (by decide) rfl (shop_layout _ (by decide))
    (shopData_file env (.inl rfl) deleted) (shop_op _ _) shop_arranged
    (shop_handled _ (by decide)) (shopData_marked (.inl rfl) deleted) (shopData_format (.inl rfl) deleted).1
    (shopData_format (.inl rfl) deleted).2
    (by
      intro row hrow
      rw [show columnsOf shopColumns 20 = [shopId, shopName] by decide]
      cases deleted with
      | true =>
        cases List.mem_singleton.mp hrow
        exact .cons ⟨trivial, trivial⟩ (.cons ⟨trivial, ⟨by decide, by decide⟩⟩ .nil)
      | false =>
        rcases List.mem_cons.mp hrow with rfl | hrow
        · exact .cons ⟨trivial, trivial⟩ (.cons ⟨trivial, ⟨by decide, by decide⟩⟩ .nil)
        · cases List.mem_singleton.mp hrow
          exact .cons ⟨trivial, trivial⟩ (.cons (by show shopName.mtype ≠ _; decide) .nil))
    (show 96 ∉ b! "shop" by decide) (show 96 ∉ b! "t" by decide) out

theorem null_not_text {ff : FloatFmt} {v : SqlVal} {b : Bytes} (h : Denotes ff v .null) (h' : Denotes ff v (.text b)) : False := by
  cases v with
  | null => exact h'
  | _ => exact h

/-- the statement for a row with the name `'NULL'` or without name -/
theorem null_printed (ff : FloatFmt) (i : Int) (o : Orig) (ho : o = .text (b! "NULL") ∨ o = .null) (db table : Bytes) (hdb : 96 ∉ db) (ht : 96 ∉ table) {cs : List Column} {os : List Orig}
    (hnames : cs.map (·.name) = [b! "id", b! "DB_TRX_ID", b! "DB_ROLL_PTR", b! "name"]) (hmt : cs.map (·.mtype) = [3, 0, 0, 15])
    (h : All2 (fun c o => c.name ∉ internalNames → Holds c o) cs os) (hv : userValues cs os = [.int i, o]) :
    ∃ vs, readReplace (replaceStmt ff db table cs) = some ⟨db, table, vs⟩ ∧ All2 (Denotes ff) vs [.int i, .null] := by
  have hl : cs.length = 4 := by simpa using congrArg List.length hnames
  match cs, hl, hnames, hmt, os, h with
  | [c1, c2, c3, c4], _, hnames, hmt, [o1, o2, o3, o4], .cons h1 (.cons h2 (.cons h3 (.cons h4 .nil))) =>
    simp only [List.map_cons, List.map_nil, List.cons.injEq, and_true] at hnames hmt
    obtain ⟨n1, n2, n3, n4⟩ := hnames
    have m1 : c1.name ∉ internalNames := by rw [n1]; decide
    have m2 : c2.name ∈ internalNames := by rw [n2]; decide
    have m3 : c3.name ∈ internalNames := by rw [n3]; decide
    have m4 : c4.name ∉ internalNames := by rw [n4]; decide
    simp only [userValues, if_neg m1, if_pos m2, if_pos m3, if_neg m4, List.cons.injEq, and_true] at hv
    obtain ⟨rfl, rfl⟩ := hv
    have := C35_replace_partial ff db table [c1, c2, c3, c4] [.int i, o2, o3, .null] hdb ht
      (.cons (fun h => ⟨h1 h, trivial⟩) (.cons (fun h => absurd m2 h) (.cons (fun h => absurd m3 h)
        (.cons (fun h => ⟨by rcases ho with rfl | rfl <;> [exact (h4 h).1; exact h4 h], by show c4.mtype ≠ _; rw [hmt.2.2.2]; decide⟩) .nil))))
    simp only [userValues, if_neg m1, if_pos m2, if_pos m3, if_neg m4] at this
    exact this

/-- C57 is false of the code: of a row with the name `'NULL'`, a statement is printed that sets the name to NULL. -/
theorem C57_false : ¬ C57_statement := by
  intro h
  have hn : ShopRow (b! "NULL") := .inr rfl
  obtain ⟨lines, e1, e2⟩ := h testEnv (shopArgs (b! "NULL") false) _ _ _ _ _ _ ⟨b! "shop/t", 20, 5⟩ ⟨20, 30, b! "PRIMARY", 1, 3⟩ _ _ false
    (shopRows (b! "NULL") false) rfl rfl (shop_dictionary (.inl rfl)) (by decide) (by decide) (by decide) (shop_layout _ (by decide))
    (shopData_file testEnv hn false) (shop_op _ _) []
  obtain ⟨rws, f1, f2⟩ := command_decoded testEnv False (shopArgs (b! "NULL") false) _ _ _ _ _ _ ⟨b! "shop/t", 20, 5⟩
    ⟨20, 30, b! "PRIMARY", 1, 3⟩ _ _ false (shopRows (b! "NULL") false) rfl rfl (shop_dictionary (.inl rfl)) (by decide) (by decide)
    (shop_layout _ (by decide)) (shopData_file testEnv hn false) (shop_op _ _)
    shop_arranged
    (shop_handled _ (by decide)) (shopData_marked hn false) (shopData_format hn false).1 (shopData_format hn false).2
    (by
      intro row hrow
      rw [show columnsOf shopColumns 20 = [shopId, shopName] by decide]
      rcases List.mem_cons.mp hrow with rfl | hrow
      · exact .cons ⟨False.elim, by rintro v ⟨⟩; trivial⟩ (.cons ⟨False.elim, by rintro v ⟨⟩; trivial⟩ .nil)
      · cases List.mem_singleton.mp hrow
        exact .cons ⟨False.elim, by rintro v ⟨⟩; trivial⟩ (.cons ⟨False.elim, by rintro v ⟨⟩⟩ .nil)) []
  rw [f1] at e1
  injection e1 with _ e1
  rw [List.nil_append, List.nil_append] at e1
  subst e1
  cases f2 with
  | @cons cs _ rws _ hcs _ =>
    cases e2 with
    | cons hp _ =>
      obtain ⟨os, k1, k2, k3⟩ := hcs
      -- the stored columns
      have hnames : cs.map (·.name) = [b! "id", b! "DB_TRX_ID", b! "DB_ROLL_PTR", b! "name"] := (skels_names k1).trans rfl
      have hmt : cs.map (·.mtype) = [3, 0, 0, 15] := by
        have := congrArg (List.map (·.mtype)) k1
        rw [List.map_map, List.map_map] at this
        exact this
      have hv : userValues cs os = [.int 1, .text (b! "NULL")] := k3
      obtain ⟨vs, v1, v2⟩ := null_printed testEnv.ff 1 _ (.inl rfl) (b! "shop") (b! "t") (by decide) (by decide) hnames hmt
        (all2_imp (fun _ _ h hn => (h hn).1) k2) hv
      obtain ⟨ws, w1, w2⟩ := hp
      have : some (⟨b! "shop", b! "t", vs⟩ : Replace) = some ⟨b! "shop", b! "t", ws⟩ := v1.symm.trans w1
      injection this with this
      injection this with _ _ this
      subst this
      have w2 : All2 (Denotes testEnv.ff) vs [.int 1, .text (b! "NULL")] := w2
      rcases v2 with _ | ⟨_, _ | ⟨d1, _⟩⟩
      rcases w2 with _ | ⟨_, _ | ⟨d2, _⟩⟩
      exact null_not_text d1 d2

end Verif.Props
