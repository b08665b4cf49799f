import Verif.Props.TableFile
/-!
# Lemmas: from stored records to decoded rows
-/

set_option linter.unusedSimpArgs false

namespace Verif.Props
open Verif Spec

/-! ## Texts of dates and times -/

theorem decEnc_digits (w n : Nat) : ∀ x ∈ decEnc w n, x.toNat ≤ 57 := by
  induction w generalizing n with
  | zero => intro x hx; cases hx
  | succ w ih =>
    intro x hx
    rw [decEnc_snoc, List.mem_append] at hx
    rcases hx with hx | hx
    · exact ih _ x hx
    · rw [List.mem_singleton.mp hx, digit_toNat (by omega)]; omega

/-- texts without letters -/
def Plain (s : Bytes) : Prop := ∀ x ∈ s, x.toNat ≤ 58

theorem Plain.append {s t : Bytes} (hs : Plain s) (ht : Plain t) : Plain (s ++ t) := by
  intro x hx
  rcases List.mem_append.mp hx with h | h
  · exact hs x h
  · exact ht x h

theorem plain_decEnc (w n : Nat) : Plain (decEnc w n) := fun x hx => by have := decEnc_digits w n x hx; omega

theorem plain_yearText (y : Nat) : Plain (yearText y) := by
  unfold yearText
  split
  · exact plain_decEnc _ _
  · split
    · exact plain_decEnc _ _
    · split <;> exact plain_decEnc _ _

theorem plain_dash : Plain (b! "-") := by unfold Plain; decide
theorem plain_colon : Plain (b! ":") := by unfold Plain; decide
theorem plain_space : Plain (b! " ") := by unfold Plain; decide

theorem Plain.shown {s : Bytes} (h : Plain s) : s ≠ b! "NULL" ∧ s ≠ b! "0001-01-01T00:00:00Z" := by
  constructor
  · rintro rfl
    exact absurd (h 78 (by decide)) (by decide)
  · rintro rfl
    exact absurd (h 84 (by decide)) (by decide)

theorem plain_civil (c : Civil) : Plain c.text :=
  ((((((((((plain_decEnc _ _).append plain_dash).append (plain_decEnc _ _)).append plain_dash).append (plain_decEnc _ _)).append plain_space).append
    (plain_decEnc _ _)).append plain_colon).append (plain_decEnc _ _)).append plain_colon).append (plain_decEnc _ _)

/-! ## One column -/

/-- what is printed for the value can be read back -/
theorem restorable_of_shown (ff : FloatFmt) (c : Column) (v : TVal) (h : Shown ff v) : Restorable ff c (origOf ff (some v)) := by
  cases v with
  | date y m d =>
    exact (((((plain_decEnc _ _).append plain_dash).append (plain_decEnc _ _)).append plain_dash).append (plain_decEnc _ _)).shown
  | time neg hh m s =>
    refine Plain.shown (Plain.append (Plain.append (Plain.append (Plain.append (Plain.append ?_ (plain_yearText _)) plain_colon)
      (plain_decEnc _ _)) plain_colon) (plain_decEnc _ _))
    cases neg
    · intro x hx; cases hx
    · exact plain_dash
  | datetimeOld c => exact (plain_civil c).shown
  | datetime c => exact (plain_civil c).shown
  | timestamp t c => exact (plain_civil c).shown
  | int _ _ => trivial
  | uint _ _ => trivial
  | year _ => trivial
  | binary _ => trivial
  | varbinary _ => trivial
  | blob _ => trivial
  | _ => exact h

/-- columns of other types than the binary ones are not marked as binary -/
theorem not_binary {c c0 : Column} (hs : skelB true c = skelB true c0) (hb : c0.isBinary = true → c0.ftype = DATA_BLOB) {v : TVal}
    (hc : v.Of c0) (hv : TVal.isHex v = false) : c.isBinary = false := by
  obtain ⟨_, h2, h3, _⟩ := skel_fields hs
  have hset : setsBinary c.ftype c.mtype = false := by
    rw [h2, h3]
    cases v <;> simp only [TVal.isHex, Bool.true_eq_false] at hv <;> simp_all [TVal.Of, setsBinary, DATA_FIXBINARY, DATA_BINARY,
      MYSQL_TYPE_STRING, MYSQL_TYPE_VARCHAR]
  rw [skel_flag hs hset]
  cases he : c0.isBinary with
  | false => rfl
  | true =>
    have h5 := hb he
    cases v <;> simp only [TVal.isHex, Bool.true_eq_false] at hv <;> simp_all [TVal.Of, DATA_BLOB]

/-- only BIT values are stored in BIT columns -/
theorem not_bit {c0 : Column} (hbit : c0.mtype = MYSQL_TYPE_BIT → c0.ftype = DATA_FIXBINARY) {v : TVal} (hc : v.Of c0)
    (hv : ∀ w n, v ≠ .bit w n) : c0.mtype ≠ MYSQL_TYPE_BIT := by
  intro he
  have h3 := hbit he
  cases v <;> simp_all [TVal.Of, MYSQL_TYPE_BIT, DATA_FIXBINARY]

/-- The decoded value is the stored one. -/
theorem decode_item (env : Env) (c c0 : Column) (hs : skelB true c = skelB true c0) (hb : c0.isBinary = true → c0.ftype = DATA_BLOB)
    (hbit : c0.mtype = MYSQL_TYPE_BIT → c0.ftype = DATA_FIXBINARY) (v : TVal) (hc : v.Of c0) (hf : v.Fits env.zone) (hd : TVal.Decodable v)
    (rest : Bytes) (hl : 3 ≤ rest.length) (out : Out) :
    ∃ c', decodeCell env c (.val v.enc) rest out = .ok c' out ∧ skelB true c' = skelB true c0 ∧ Holds c' (origOf env.ff (some v)) := by
  obtain ⟨h1, h2, h3, _, h5, _, h7, _, h9⟩ := skel_fields hs
  have hof : v.Of c := by
    cases v <;> simp only [TVal.Of, h2, h3, h5, h7] at hc ⊢ <;> first | exact hc | skip
    · exact ⟨hc.1, by rw [h9 (by rw [h2, hc.1]; rfl)]; exact hc.2⟩
    · exact ⟨hc.1, by rw [h9 (by rw [h2, hc.1]; rfl)]; exact hc.2⟩
  obtain ⟨x, _, _, hx, hp⟩ := decode_value env c v hof hf hd
  have hp := hp rest out (by cases v <;> simp [TVal.lookahead] <;> omega)
  have hnb : TVal.isHex v = false → c.isBinary = false := not_binary hs hb hc
  have hnbit : (∀ w n, v ≠ .bit w n) → c.mtype ≠ MYSQL_TYPE_BIT := fun h => by rw [h3]; exact not_bit hbit hc h
  refine ⟨{ c with value := x, isBinary := if TVal.isHex v then true else c.isBinary }, ?_, ?_, ?_⟩
  · show GoM.bind _ _ out = _
    unfold GoM.bind
    simp only [Cell.bytes, hp]
    rfl
  · rw [skel_update true c x _ ?_]
    · exact hs
    · cases v with
      | binary s => left; rw [hof.1, hof.2]; rfl
      | varbinary s => left; rw [hof.1, hof.2]; rfl
      | blob s => right; rw [hof.2]; rfl
      | _ => right; rfl
  · cases v with
    | binary s => exact ⟨⟨_, hx, unhex_parseBlob s⟩, rfl, hnbit nofun⟩
    | varbinary s => exact ⟨⟨_, hx, unhex_parseBlob s⟩, rfl, hnbit nofun⟩
    | blob s => exact ⟨⟨_, hx, unhex_parseBlob s⟩, rfl, hnbit nofun⟩
    | int w i => exact ⟨hx, hnb rfl, hnbit nofun⟩
    | uint w n => exact ⟨.inr ⟨n, hx, rfl⟩, hnb rfl, hnbit nofun⟩
    | year n => exact ⟨.inr ⟨n, hx, rfl⟩, hnb rfl, hnbit nofun⟩
    | bit w n => exact ⟨hx, hnb rfl, hof.2.1⟩
    | _ => exact ⟨hx, hnb rfl, hnbit nofun⟩

/-! ## One row -/

/-- A stored column of the table: one of InnoDB's, or a column with its value.  `D` is what is known of all values. -/
def Slot (env : Env) (q : Prop) (D : TVal → Prop) (c : Column) (x : Cell) (y : Option TVal) : Prop :=
  c.name ∈ internalNames ∧ c.ftype = 0 ∧ (∃ b, x = .val b) ∨
  c.name ∉ internalNames ∧ (c.isBinary = true → c.ftype = DATA_BLOB) ∧ (c.mtype = MYSQL_TYPE_BIT → c.ftype = DATA_FIXBINARY) ∧
    x = cellOfVal y ∧ (q → Restored env.ff c y) ∧
      ∀ v, y = some v → v.Of c ∧ v.Fits env.zone ∧ D v

theorem decode_slot (env : Env) (q : Prop) (c c0 : Column) (hs : skelB true c = skelB true c0) (x : Cell) (y : Option TVal) (h : Slot env q TVal.Decodable c0 x y)
    (rest : Bytes) (hl : 3 ≤ rest.length) (out : Out) :
    ∃ c', decodeCell env c x rest out = .ok c' out ∧ skelB true c' = skelB true c0 ∧
      (c0.name ∉ internalNames → Holds c' (origOf env.ff y) ∧ (q → Restorable env.ff c' (origOf env.ff y))) := by
  rcases h with ⟨hn, h0, b, rfl⟩ | ⟨hn, hb, hbit, rfl, hre, hy⟩
  · have h2 := (skel_fields hs).2.1
    refine ⟨{ c with value := .nil }, ?_, hs, fun h => absurd hn h⟩
    show GoM.bind _ _ out = _
    unfold GoM.bind
    rw [h2, h0]
    rfl
  · cases y with
    | none => exact ⟨{ c with value := .str (b! "NULL") }, rfl, hs, fun _ => ⟨rfl, fun hq => by
        show c.mtype ≠ _
        rw [(skel_fields hs).2.2.1]
        exact hre hq⟩⟩
    | some v =>
      obtain ⟨h1, h2, h3⟩ := hy v rfl
      obtain ⟨c', e1, e2, e3⟩ := decode_item env c c0 hs hb hbit v h1 h2 h3 rest hl out
      exact ⟨c', e1, e2, fun _ => ⟨e3, fun hq => restorable_of_shown env.ff c' v (hre hq).2⟩⟩

theorem decode_slots (env : Env) (q : Prop) (l : List Column) (es : List (Cell × Option TVal)) (h : All2 (fun c e => Slot env q TVal.Decodable c e.1 e.2) l es)
    (cols : List Column) (hs : cols.map (skelB true) = l.map (skelB true)) (row : Row) (hr : row.map (·.2) = es.map (·.1)) (post : Bytes)
    (hl : 3 ≤ post.length) (out : Out) :
    ∃ cols', decodeRow env cols row post out = .ok cols' out ∧ cols'.map (skelB true) = l.map (skelB true) ∧
      All2 (fun c o => c.name ∉ internalNames → Holds c o ∧ (q → Restorable env.ff c o)) cols' (es.map fun e => origOf env.ff e.2) := by
  induction h generalizing cols row with
  | nil =>
    have : cols = [] := by simpa using hs
    subst this
    exact ⟨[], by unfold decodeRow; rfl, rfl, .nil⟩
  | @cons c0 e l es h _ ih =>
    cases cols with
    | nil => simp at hs
    | cons c cols =>
      cases row with
      | nil => simp at hr
      | cons x row =>
        simp only [List.map_cons, List.cons.injEq] at hs hr
        obtain ⟨c', e1, e2, e3⟩ := decode_slot env q c c0 hs.1 e.1 e.2 h (rowData row ++ post) (by rw [List.length_append]; omega) out
        obtain ⟨cols', f1, f2, f3⟩ := ih cols hs.2 row hr.2
        refine ⟨c' :: cols', ?_, by rw [List.map_cons, List.map_cons, e2, f2], .cons ?_ f3⟩
        · unfold decodeRow
          rw [GoM.bind_run, hr.1, e1]
          dsimp only
          rw [GoM.bind_run, f1]
          rfl
        · rw [(skel_fields e2).1]; exact e3

/-- Several rows: each is decoded, nothing else is printed, and the columns keep their definitions. -/
theorem decode_all (env : Env) (q : Prop) (l : List Column) (rows : List (Row × Bytes)) (ess : List (List (Cell × Option TVal)))
    (h : All2 (fun r es => r.1.map (·.2) = es.map (·.1) ∧ 3 ≤ r.2.length ∧ All2 (fun c e => Slot env q TVal.Decodable c e.1 e.2) l es) rows ess)
    (s : PState) (hs : s.cols.map (skelB true) = l.map (skelB true)) :
    ∃ rs cols, decodeRows env rows s = .ok rs ⟨cols, s.out⟩ ∧ cols.map (skelB true) = l.map (skelB true) ∧
      All2 (fun cs es => cs.map (skelB true) = l.map (skelB true) ∧
        All2 (fun c o => c.name ∉ internalNames → Holds c o ∧ (q → Restorable env.ff c o)) cs (es.map fun e => origOf env.ff e.2)) rs ess := by
  induction h generalizing s with
  | nil => exact ⟨[], s.cols, rfl, hs, .nil⟩
  | @cons r es rows ess h _ ih =>
    obtain ⟨h1, h2, h3⟩ := h
    obtain ⟨cs, e1, e2, e3⟩ := decode_slots env q l es h3 s.cols hs r.1 h1 r.2 h2 s.out
    obtain ⟨rs, cols, f1, f2, f3⟩ := ih ⟨cs, s.out⟩ e2
    refine ⟨cs :: rs, cols, ?_, f2, .cons ⟨e2, e3⟩ f3⟩
    obtain ⟨row, post⟩ := r
    unfold decodeRows
    have : decodeRowP env row post s = .ok cs ⟨cs, s.out⟩ := by unfold decodeRowP; rw [e1]
    rw [GoM.bind_run, this]
    dsimp only
    rw [GoM.bind_run, f1]
    rfl

theorem all2_and {α β : Type} {R S : α → β → Prop} {l : List α} {m : List β} (h : All2 R l m) (h' : All2 S l m) :
    All2 (fun a b => R a b ∧ S a b) l m := by
  induction h with
  | nil => exact .nil
  | cons h _ ih =>
    cases h' with
    | cons h' hs => exact .cons ⟨h, h'⟩ (ih hs)

/-! ## From values by name to stored columns -/

/-- the tool gets the values of this column right -/
def Good (env : Env) (q : Prop) (D : TVal → Prop) (c : Column) (x : Option TVal) : Prop :=
  (c.isBinary = true → c.ftype = DATA_BLOB) ∧ (c.mtype = MYSQL_TYPE_BIT → c.ftype = DATA_FIXBINARY) ∧
    (q → Restored env.ff c x) ∧ ∀ v, x = some v → v.Of c ∧ v.Fits env.zone ∧ D v

/-- the entries of the user's columns -/
def pickUser {α : Type} : List Column → List α → List α
  | c :: cs, y :: ys => if c.name ∈ internalNames then pickUser cs ys else y :: pickUser cs ys
  | _, _ => []

theorem userValues_map {α : Type} (f : α → Orig) (cols : List Column) (ys : List α) : userValues cols (ys.map f) = (pickUser cols ys).map f := by
  induction cols generalizing ys with
  | nil => cases ys <;> rfl
  | cons c cols ih =>
    cases ys with
    | nil => rfl
    | cons y ys =>
      rw [List.map_cons, userValues, pickUser]
      split
      · exact ih ys
      · rw [List.map_cons, ih ys]

theorem slots_among (env : Env) (q : Prop) (D : TVal → Prop) (N : List (Bytes × Cell)) (hN : ∀ n a b, (n, a) ∈ N → (n, b) ∈ N → a = b) (l : List Column)
    (cells : List Cell) (hhid : All2 (fun c x => c.name ∈ internalNames → c.ftype = 0 ∧ ∃ b, x = .val b) l cells)
    (hin : ∀ p ∈ (l.map (·.name)).zip cells, p ∈ N) (row : List (Option TVal))
    (hst : All2 (fun c x => (c.name, cellOfVal x) ∈ N ∧ Good env q D c x) (userColumns l) row) :
    ∃ es : List (Cell × Option TVal), es.map (·.1) = cells ∧ All2 (fun c e => Slot env q D c e.1 e.2) l es ∧
      ∀ cols' : List Column, cols'.map (·.name) = l.map (·.name) → pickUser cols' (es.map (·.2)) = row := by
  induction hhid generalizing row with
  | nil =>
    cases hst
    exact ⟨[], rfl, .nil, fun cols' _ => by cases cols' <;> rfl⟩
  | @cons c x l cells hh _ ih =>
    have hin' : ∀ p ∈ (l.map (·.name)).zip cells, p ∈ N := fun p hp => hin p (List.mem_cons_of_mem _ hp)
    by_cases hc : c.name ∈ internalNames
    · have e : userColumns (c :: l) = userColumns l := by
        unfold userColumns
        rw [List.filter_cons_of_neg (by simpa using hc)]
      rw [e] at hst
      obtain ⟨es, h1, h2, h3⟩ := ih hin' row hst
      refine ⟨(x, none) :: es, by rw [List.map_cons, h1], .cons (.inl ⟨hc, (hh hc).1, (hh hc).2⟩) h2, fun cols' hn => ?_⟩
      cases cols' with
      | nil => simp at hn
      | cons c' cols' =>
        simp only [List.map_cons, List.cons.injEq] at hn
        rw [List.map_cons, pickUser, if_pos (by rw [hn.1]; exact hc)]
        exact h3 cols' hn.2
    · have e : userColumns (c :: l) = c :: userColumns l := by
        unfold userColumns
        rw [List.filter_cons_of_pos (by simpa using hc)]
      rw [e] at hst
      cases hst with
      | @cons _ y _ row hy hst =>
        obtain ⟨es, h1, h2, h3⟩ := ih hin' row hst
        have hx : x = cellOfVal y := hN c.name _ _ (hin _ (by simp)) hy.1
        refine ⟨(x, y) :: es, by rw [List.map_cons, h1],
          .cons (.inr ⟨hc, hy.2.1, hy.2.2.1, hx, hy.2.2.2.1, hy.2.2.2.2⟩) h2, fun cols' hn => ?_⟩
        cases cols' with
        | nil => simp at hn
        | cons c' cols' =>
          simp only [List.map_cons, List.cons.injEq] at hn
          rw [List.map_cons, pickUser, if_neg (by rw [hn.1]; exact hc)]
          exact congrArg _ (h3 cols' hn.2)

theorem mem_zip_of_getElem? {α β : Type} {l : List α} {m : List β} {i : Nat} {a : α} {b : β} (h1 : l[i]? = some a) (h2 : m[i]? = some b) :
    (a, b) ∈ l.zip m := by
  have : (l.zip m)[i]? = some (a, b) := by rw [List.getElem?_zip_eq_some]; exact ⟨h1, h2⟩
  exact List.mem_of_getElem? this

theorem slots_of_stores (env : Env) (q : Prop) (D : TVal → Prop) (l : List Column) (cells : List Cell) (hnd : (l.map (·.name)).Nodup)
    (hhid : All2 (fun c x => c.name ∈ internalNames → c.ftype = 0 ∧ ∃ b, x = .val b) l cells) (row : List (Option TVal))
    (hst : All2 (fun c x => Stores l cells c x ∧ Good env q D c x) (userColumns l) row) :
    ∃ es : List (Cell × Option TVal), es.map (·.1) = cells ∧ All2 (fun c e => Slot env q D c e.1 e.2) l es ∧
      ∀ cols' : List Column, cols'.map (·.name) = l.map (·.name) → pickUser cols' (es.map (·.2)) = row := by
  refine slots_among env q D ((l.map (·.name)).zip cells) ?_ l cells hhid (fun p hp => hp) row (all2_imp ?_ hst)
  · intro n a b ha hb
    have hz : (((l.map (·.name)).zip cells).map Prod.fst).Nodup := by
      rw [List.map_fst_zip (by rw [List.length_map, all2_length hhid])]
      exact hnd
    exact (Prod.mk.inj (List.inj_on_of_nodup_map hz ha hb rfl)).2
  · rintro c x ⟨⟨i, h1, h2⟩, hg⟩
    exact ⟨mem_zip_of_getElem? h1 h2, hg⟩

/-! ## One page -/

theorem all2_get {α β : Type} {R : α → β → Prop} {l : List α} {m : List β} (h : All2 R l m) (i : Nat) (hl : i < l.length)
    (hm : i < m.length) : R l[i] m[i] := by
  induction h generalizing i with
  | nil => simp at hl
  | cons h _ ih =>
    cases i with
    | zero => exact h
    | succ i => exact ih i (by simpa using hl) (by simpa using hm)

/-- InnoDB's own columns are never NULL. -/
def HiddenVal (k : ColDef) (x : Cell) : Prop := k.kind.mainType = 0 → k.nullable = false → ∃ b, x = .val b

theorem hiddenVal_fits {k : ColDef} {x : Cell} (h : Fits k.scol x) : HiddenVal k x := by
  intro h0 hn
  obtain ⟨kind, nullable⟩ := k
  cases kind <;> simp [Kind.mainType] at h0
  cases x with
  | null => simp [Fits, ColDef.scol] at h hn; rw [hn] at h; cases h
  | val b => exact ⟨b, rfl⟩
  | ext b => simp [Fits, ColDef.scol, Kind.storage] at h

theorem hidden_cells {l : List Column} {defs : List ColDef} {cells : List Cell} (hd : All2 Describes l defs) (hc : All2 HiddenVal defs cells)
    (hl : ∀ c ∈ l, c.name ∈ internalNames → c.ftype = 0 ∧ c.isNull = false) :
    All2 (fun c x => c.name ∈ internalNames → c.ftype = 0 ∧ ∃ b, x = .val b) l cells := by
  induction hd generalizing cells with
  | nil => cases hc; exact .nil
  | @cons c k l defs h _ ih =>
    cases hc with
    | cons hx hc =>
      refine .cons (fun hn => ?_) (ih hc fun c hc => hl c (List.mem_cons_of_mem _ hc))
      obtain ⟨h0, h1⟩ := hl c (by simp) hn
      exact ⟨h0, hx (by rw [← h.2.1, h0]) (by rw [← h.1, h1])⟩

theorem rowOf_cells {defs : List ColDef} {cells : List Cell} (h : Storable defs cells) : (rowOf defs cells).map (·.2) = cells := by
  unfold rowOf
  rw [List.map_map]
  exact List.map_snd_zip (by rw [all2_length h])

/-- The records of a page are decoded one by one. -/
theorem page_rows (env : Env) (tables : TableMap) (defs : List ColDef) (deleted : Bool) (d : Bytes) (cellss : List (List Cell))
    (hp : PageHolds defs deleted d cellss) (s : PState) (hk : Known tables s.cols defs) (h3 : 3 ≤ defs.length) (hd : d.length = 16384)
    (hc : isCompact d = true → ∀ k ∈ defs, k.kind.Readable) (ho : isCompact d = false → ∀ k ∈ defs, ∀ m, k.kind = .varcharLatin1 m → m = 0)
    (hn : isCompact d = false → ∀ cells ∈ cellss, .null ∉ cells) :
    ∃ rows, parsePage env tables d deleted (field d PAGE_FREE) s = decodeRows env rows s ∧
      All2 (fun r cells => r.1.map (·.2) = cells ∧ 3 ≤ r.2.length) rows cellss := by
  cases hp with
  | @compact os _ h1 h2 hrows =>
    refine ⟨storedRows d defs os cellss, ?_, ?_⟩
    · have hrows' : All2 (CompactRow d defs) os cellss := all2_imp (fun _ _ h => h.1) hrows
      unfold Records at h2
      cases deleted with
      | false => exact C22_compact_page_partial env tables defs d _ os cellss s hk h3 hd h1 (by rw [h1] at h2; exact h2) hrows' (hc h1)
      | true => exact C23_compact_page_partial env tables defs d _ os cellss s hk h3 hd h1 (by rw [h1] at h2; exact h2) hrows' (hc h1)
    · clear h2 hn
      induction hrows with
      | nil => exact .nil
      | @cons o cells os cellss h _ ih =>
        refine .cons ⟨rowOf_cells h.1.1, ?_⟩ ih
        rw [List.length_drop, hd]
        have := h.2
        omega
  | @redundant os rows h1 h2 hrows =>
    refine ⟨storedOldRows d os rows, ?_, ?_⟩
    · have hrows' : All2 (OldRow d defs) os rows := all2_imp (fun _ _ h => h.1.1) hrows
      unfold Records at h2
      cases deleted with
      | false => exact C22_redundant_page_partial env tables defs d _ os rows s hk.desc h3 hd h1 (by rw [h1] at h2; exact h2) hrows' (ho h1)
      | true => exact C23_redundant_page_partial env tables defs d _ os rows s hk.desc h3 hd h1 (by rw [h1] at h2; exact h2) hrows' (ho h1)
    · replace hn := hn h1
      clear h2
      induction hrows with
      | nil => exact .nil
      | @cons o r os rows h _ ih =>
        refine .cons ⟨?_, ?_⟩ (ih fun cells hc => hn cells (List.mem_cons_of_mem _ hc))
        · have hr : .null ∉ r.2.map OldCell.cell := hn _ (by simp)
          show (viewOld r.2).map (·.2) = r.2.map OldCell.cell
          unfold viewOld
          rw [List.map_map]
          refine List.map_congr_left fun x hx => ?_
          show Cell.val x.bytes = OldCell.cell x
          have : OldCell.cell x ≠ .null := fun e => hr (List.mem_map.mpr ⟨x, hx, e⟩)
          unfold OldCell.cell at this ⊢
          split
          · rename_i h; rw [if_pos h] at this; exact absurd rfl this
          · rfl
        · show 3 ≤ (d.drop (o + (oldData r.2).length)).length
          rw [List.length_drop, hd]
          have := h.1.2
          omega

theorem hidden_old {defs : List ColDef} {row : List OldCell} (h : All2 (fun k x => x.null = true → k.nullable = true) defs row) :
    All2 HiddenVal defs (row.map OldCell.cell) := by
  induction h with
  | nil => exact .nil
  | @cons k x defs row h _ ih =>
    refine .cons (fun _ hn => ⟨x.bytes, ?_⟩) ih
    unfold OldCell.cell
    rw [if_neg]
    intro e
    rw [h e] at hn
    cases hn

theorem page_hidden {defs : List ColDef} {deleted : Bool} {d : Bytes} {cellss : List (List Cell)} (hp : PageHolds defs deleted d cellss) :
    ∀ cells ∈ cellss, All2 HiddenVal defs cells := by
  cases hp with
  | @compact os _ _ h2 hrows =>
    intro cells hc
    clear h2
    induction hrows with
    | nil => cases hc
    | @cons o c os cellss h _ ih =>
      rcases List.mem_cons.mp hc with rfl | hc
      · exact all2_imp (fun _ _ h => hiddenVal_fits h) h.1.1
      · exact ih hc
  | @redundant os rows _ h2 hrows =>
    intro cells hc
    clear h2
    induction hrows with
    | nil => cases hc
    | @cons o r os rows h _ ih =>
      rcases List.mem_cons.mp hc with rfl | hc
      · have := h.2
        show All2 HiddenVal defs (r.2.map OldCell.cell)
        exact hidden_old this
      · exact ih hc

theorem no_null {l : List Column} {cells : List Cell} (hnd : (l.map (·.name)).Nodup)
    (hhid : All2 (fun c x => c.name ∈ internalNames → c.ftype = 0 ∧ ∃ b, x = .val b) l cells) {row : List (Option TVal)}
    (hst : All2 (Stores l cells) (userColumns l) row) (hr : none ∉ row) : .null ∉ cells := by
  intro hin
  obtain ⟨i, hi, he⟩ := List.mem_iff_getElem.mp hin
  have hl := all2_length hhid
  have hil : i < l.length := by omega
  have key : l[i].name ∈ internalNames → ∃ b, cells[i] = .val b := fun h => (all2_get hhid i hil hi h).2
  by_cases hn : l[i].name ∈ internalNames
  · obtain ⟨b, hb⟩ := key hn
    rw [hb] at he
    cases he
  · obtain ⟨x, hx, j, h1, h2⟩ := all2_mem hst l[i] (List.mem_filter.mpr ⟨List.getElem_mem _, by simpa using hn⟩)
    have hj : j = i := by
      obtain ⟨hj, h1⟩ := List.getElem?_eq_some_iff.mp h1
      have hi' : i < (l.map (·.name)).length := by simpa using hil
      exact (List.Nodup.getElem_inj_iff hnd).mp (h1.trans (show l[i].name = (l.map (·.name))[i] by rw [List.getElem_map]))
    subst hj
    rw [List.getElem?_eq_getElem hi, he] at h2
    injection h2 with h2
    cases x with
    | none => exact hr hx
    | some v => cases h2

/-! ## The pages of a file -/

/-- the columns and how they are stored -/
structure StoredAs (tables : TableMap) (l : List Column) (defs : List ColDef) : Prop where
  known : Known tables l defs
  three : 3 ≤ defs.length
  nodup : (l.map (·.name)).Nodup
  hidden : ∀ c ∈ l, c.name ∈ internalNames → c.ftype = 0 ∧ c.isNull = false

/-- the tool can read the rows of the page -/
structure ReadablePage (env : Env) (q : Prop) (D : TVal → Prop) (l : List Column) (defs : List ColDef) (d : Bytes) (rs : List (List (Option TVal))) : Prop where
  compact : isCompact d = true → ∀ k ∈ defs, k.kind.Readable
  redundant : isCompact d = false → (∀ k ∈ defs, ∀ m, k.kind = .varcharLatin1 m → m = 0) ∧ ∀ row ∈ rs, none ∉ row
  good : ∀ row ∈ rs, All2 (Good env q D) (userColumns l) row

theorem skelB_false {c d : Column} (h : skelB true c = skelB true d) : skel c = skel d := by
  obtain ⟨c1, c2, c3, c4, c5, c6, c7, c8, c9, c10⟩ := c
  obtain ⟨d1, d2, d3, d4, d5, d6, d7, d8, d9, d10⟩ := d
  have hf := skel_fields h
  simp only [skelB] at hf ⊢
  obtain ⟨f1, f2, f3, f4, f5, f6, f7, f8, f9⟩ := hf
  subst f1 f2 f3 f4 f5 f6 f7 f8
  by_cases hb : c2 = DATA_BLOB
  · rw [f9 hb]
  · rw [show (c2 == DATA_BLOB) = false by simpa using hb]
    simp

theorem skels_false {cs ds : List Column} (h : cs.map (skelB true) = ds.map (skelB true)) : cs.map skel = ds.map skel := by
  induction cs generalizing ds with
  | nil =>
    cases ds with
    | nil => rfl
    | cons => simp at h
  | cons c cs ih =>
    cases ds with
    | nil => simp at h
    | cons d ds =>
      simp only [List.map_cons, List.cons.injEq] at h ⊢
      exact ⟨skelB_false h.1, ih h.2⟩

theorem skels_names {cs ds : List Column} (h : cs.map (skelB true) = ds.map (skelB true)) : cs.map (·.name) = ds.map (·.name) := by
  have := congrArg (List.map (·.name)) h
  rwa [List.map_map, List.map_map] at this

/-- the columns hold the values of the row; with `q`, these are such that the statement can be read back -/
def Decoded (env : Env) (q : Prop) (l cs : List Column) (row : List (Option TVal)) : Prop :=
  ∃ os, cs.map (skelB true) = l.map (skelB true) ∧ All2 (fun c o => c.name ∉ internalNames → Holds c o ∧ (q → Restorable env.ff c o)) cs os ∧
    userValues cs os = row.map (origOf env.ff)

/-- The records of a page are decoded one by one, and these are their values. -/
theorem page_slots (env : Env) (q : Prop) (D : TVal → Prop) (tables : TableMap) (l : List Column) (defs : List ColDef)
    (hs : StoredAs tables l defs) (deleted : Bool) (d : Bytes) (hd : d.length = 16384) (rs : List (List (Option TVal)))
    (hr : ReadablePage env q D l defs d rs) (cellss : List (List Cell)) (hp : PageHolds defs deleted d cellss)
    (hst : All2 (fun cells row => All2 (Stores l cells) (userColumns l) row) cellss rs) (s : PState)
    (hc : s.cols.map (skelB true) = l.map (skelB true)) :
    ∃ (rows : List (Row × Bytes)) (ess : List (List (Cell × Option TVal))), parsePage env tables d deleted (field d PAGE_FREE) s = decodeRows env rows s ∧
      All2 (fun r es => r.1.map (·.2) = es.map (·.1) ∧ 3 ≤ r.2.length ∧ All2 (fun c e => Slot env q D c e.1 e.2) l es) rows ess ∧
      All2 (fun es row => ∀ cols' : List Column, cols'.map (·.name) = l.map (·.name) →
        pickUser cols' (es.map (·.2)) = row) ess rs := by
  have hhid : ∀ cells ∈ cellss, _ := fun cells hc => hidden_cells hs.known.desc (page_hidden hp cells hc) hs.hidden
  obtain ⟨rows, e1, e2⟩ := page_rows env tables defs deleted d cellss hp s (known_skel (skels_false hc) hs.known) hs.three hd hr.compact
    (fun h => (hr.redundant h).1) (by
      intro h cells hcells
      obtain ⟨row, hrow, hst⟩ := all2_mem hst cells hcells
      exact no_null hs.nodup (hhid cells hcells) hst ((hr.redundant h).2 row hrow))
  refine ⟨rows, ?_⟩
  rw [e1]
  have hgood := hr.good
  clear e1 hp hr hc
  induction e2 generalizing rs with
  | nil => cases hst; exact ⟨[], rfl, .nil, .nil⟩
  | @cons r cells rows cellss h _ ih =>
    cases hst with
    | @cons _ row _ rs h1 hst =>
      obtain ⟨es, f1, f2, f3⟩ := slots_of_stores env q D l cells hs.nodup (hhid cells (by simp)) row
        (all2_and h1 (hgood row (by simp)))
      obtain ⟨ess, _, g1, g2⟩ := ih rs hst (fun c hc => hhid c (List.mem_cons_of_mem _ hc)) (fun x hx => hgood x (List.mem_cons_of_mem _ hx))
      exact ⟨es :: ess, rfl, .cons ⟨h.1.trans f1.symm, h.2, f2⟩ g1, .cons f3 g2⟩

theorem page_decoded (env : Env) (q : Prop) (tables : TableMap) (l : List Column) (defs : List ColDef) (hs : StoredAs tables l defs)
    (deleted : Bool) (d : Bytes) (hd : d.length = 16384) (rs : List (List (Option TVal))) (hr : ReadablePage env q TVal.Decodable l defs d rs)
    (cellss : List (List Cell)) (hp : PageHolds defs deleted d cellss)
    (hst : All2 (fun cells row => All2 (Stores l cells) (userColumns l) row) cellss rs) (s : PState)
    (hc : s.cols.map (skelB true) = l.map (skelB true)) :
    ∃ rws cols, parsePage env tables d deleted (field d PAGE_FREE) s = .ok rws ⟨cols, s.out⟩ ∧
      cols.map (skelB true) = l.map (skelB true) ∧ All2 (Decoded env q l) rws rs := by
  obtain ⟨rows, ess, e1, k1, k2⟩ := page_slots env q _ tables l defs hs deleted d hd rs hr cellss hp hst s hc
  obtain ⟨rws, cols, g1, g2, g3⟩ := decode_all env q l rows ess k1 s hc
  refine ⟨rws, cols, by rw [e1, g1], g2, ?_⟩
  clear g1 k1 hst hr
  induction g3 generalizing rs with
  | nil => cases k2; exact .nil
  | @cons cs es rws ess h _ ih =>
    cases k2 with
    | @cons _ row _ rs h2 k2 =>
      refine .cons ⟨es.map fun e => origOf env.ff e.2, h.1, h.2, ?_⟩ (ih rs k2)
      rw [← h2 cs (skels_names h.1), ← userValues_map, List.map_map]
      rfl

theorem pages_decoded (env : Env) (q : Prop) (tables : TableMap) (db table : Bytes) (l : List Column)
    (defs : List ColDef) (hs : StoredAs tables l defs) (deleted : Bool) (ds : List Bytes) (hd : ∀ d ∈ ds, d.length = 16384)
    (rss : List (List (List (Option TVal)))) (h : All2 (fun d rs => ReadablePage env q TVal.Decodable l defs d rs ∧ ∃ cellss, PageHolds defs deleted d cellss ∧
      All2 (fun cells row => All2 (Stores l cells) (userColumns l) row) cellss rs) ds rss) (s : PState)
    (hc : s.cols.map (skelB true) = l.map (skelB true)) :
    ∃ rws cols, pagesRun env tables db table deleted ds s = .ok () ⟨cols, s.out ++ rws.map (replaceStmt env.ff db table)⟩ ∧
      All2 (Decoded env q l) rws rss.flatten := by
  induction h generalizing s with
  | nil => exact ⟨[], s.cols, by rw [List.map_nil, List.append_nil]; rfl, .nil⟩
  | @cons d rs ds rss h _ ih =>
    obtain ⟨h1, cellss, h2, h3⟩ := h
    obtain ⟨rws, cols, e1, e2, e3⟩ := page_decoded env q tables l defs hs deleted d (hd d (by simp)) rs h1 cellss h2 h3 s hc
    obtain ⟨rws', cols', f1, f2⟩ := ih (fun x hx => hd x (List.mem_cons_of_mem _ hx))
      ⟨cols, s.out ++ rws.map (replaceStmt env.ff db table)⟩ e2
    refine ⟨rws ++ rws', cols', ?_, by rw [List.flatten_cons]; exact all2_append e3 f2⟩
    rw [pagesRun_cons, GoM.bind_run, printPage_full, e1]
    dsimp only
    rw [f1, List.map_append, List.append_assoc]

theorem decoded_printed (env : Env) (q : Prop) (hq : q) (db table : Bytes) (hdb : 96 ∉ db) (ht : 96 ∉ table) {l : List Column}
    {rws : List (List Column)} {rows : List (List (Option TVal))} (h : All2 (Decoded env q l) rws rows) :
    All2 (Printed env.ff db table) (rws.map (replaceStmt env.ff db table)) rows := by
  induction h with
  | nil => exact .nil
  | @cons cs row rws rows h _ ih =>
    refine .cons ?_ ih
    obtain ⟨os, _, h2, h3⟩ := h
    obtain ⟨vs, v1, v2⟩ := C35_replace_partial env.ff db table cs os hdb ht (all2_imp (fun _ _ h hn => ⟨(h hn).1, (h hn).2 hq⟩) h2)
    exact ⟨vs, v1, by rw [← h3]; exact v2⟩

end Verif.Props
