import Verif.Props.DataExact
import Verif.Props.Exact
import Verif.Props.Enum
/-!
# C57: exactly which values are printed correctly, whatever the values are
-/

set_option linter.unusedSimpArgs false

namespace Verif.Props
open Verif Spec

/-! ## Values that are decoded to others -/

/-- A value that differs so much from the stored one that nothing printed for it can be taken for the stored one. -/
def FarFrom : Orig → Orig → Prop
  | .int j, .int i => j ≠ i
  | .text s, .text t => s ≠ t ∧ t ≠ []
  | .bit m, .bit n => m < n
  | _, _ => False

/-- the years of bit-packed DATETIME values are those the tool reads correctly -/
def UsualYear : TVal → Prop
  | .datetime c => 1991 ≤ c.year ∧ c.year ≤ 2099
  | _ => True

theorem cell_ok {env : Env} {c : Column} {v : TVal} {rest : Bytes} {out : Out} {x : Val} {b : Bool}
    (h : parseData env c.ftype c.mtype (v.enc ++ rest) v.enc.length (getFixedLength c.ftype c.len) c.isUnsigned c.isBinary out = .ok (x, b) out) :
    decodeCell env c (.val v.enc) rest out = .ok { c with value := x, isBinary := b } out := by
  show GoM.bind _ _ out = _
  unfold GoM.bind
  simp only [Cell.bytes, h]
  rfl

theorem cell_panic {env : Env} {c : Column} {v : TVal} {rest : Bytes} {out : Out}
    (h : parseData env c.ftype c.mtype (v.enc ++ rest) v.enc.length (getFixedLength c.ftype c.len) c.isUnsigned c.isBinary out = .panic out) :
    decodeCell env c (.val v.enc) rest out = .panic out := by
  show GoM.bind _ _ out = _
  unfold GoM.bind
  simp only [Cell.bytes, h]

/-- what becomes of a value of the column: the tool reads it right, or as another one, or it gives up -/
theorem item_seen (env : Env) (c c0 : Column) (hs : skelB true c = skelB true c0) (hb : c0.isBinary = true → c0.ftype = DATA_BLOB)
    (hbit : c0.mtype = MYSQL_TYPE_BIT → c0.ftype = DATA_FIXBINARY) (v : TVal) (hc : v.Of c0) (hf : v.Fits env.zone) (hy : UsualYear v)
    (rest : Bytes) (hl : 3 ≤ rest.length) (out : Out) :
    decodeCell env c (.val v.enc) rest out = .panic out ∨ ∃ c' o, decodeCell env c (.val v.enc) rest out = .ok c' out ∧
      skelB true c' = skelB true c0 ∧ Holds c' o ∧ (TVal.Decodable v ∧ o = origOf env.ff (some v) ∨ FarFrom o (origOf env.ff (some v))) := by
  by_cases hd : TVal.Decodable v
  · obtain ⟨c', h1, h2, h3⟩ := decode_item env c c0 hs hb hbit v hc hf hd rest hl out
    exact .inr ⟨c', _, h1, h2, h3, .inl ⟨hd, rfl⟩⟩
  obtain ⟨h1, h2, h3, _, h5, _, h7, _, h9⟩ := skel_fields hs
  have hof : v.Of c := by
    cases v <;> simp only [TVal.Of, h2, h3, h5, h7] at hc ⊢ <;> first | exact hc | skip
    · exact ⟨hc.1, by rw [h9 (by rw [h2, hc.1]; rfl)]; exact hc.2⟩
    · exact ⟨hc.1, by rw [h9 (by rw [h2, hc.1]; rfl)]; exact hc.2⟩
  have hnb : TVal.isHex v = false → c.isBinary = false := not_binary hs hb hc
  have hnbit : (∀ w n, v ≠ .bit w n) → c.mtype ≠ MYSQL_TYPE_BIT := fun h => by rw [h3]; exact not_bit hbit hc h
  have hskel : ∀ x : Val, skelB true { c with value := x } = skelB true c0 := fun x => hs
  cases v with
  | uint w n =>
    have hd : ¬ (w = 3 → n < 2 ^ 22) := hd
    have hw : w = 3 := Classical.byContradiction fun h => hd fun e => absurd e h
    subst hw
    obtain ⟨e1, e2, e3, e4, e5⟩ := hof
    have := C07_width3 env n rest 6 c.mtype true c.isBinary out (.int _ e2 e3) hf.2
    refine .inr ⟨{ c with value := .uint (n % 2 ^ 22) }, .int (n % 2 ^ 22 : Nat), cell_ok ?_, hskel _,
      ⟨.inr ⟨_, rfl, rfl⟩, hnb rfl, hnbit nofun⟩, .inr ?_⟩
    · simp only [TVal.enc, beEnc_length, e1, e4, e5]
      exact this
    · intro e
      have e : n % 2 ^ 22 = n := by exact_mod_cast e
      exact hd fun _ => by omega
  | bit w n =>
    obtain ⟨e1, e2, e3⟩ := hof
    obtain ⟨hw1, hw2, hn⟩ := hf
    have hd : ¬ (w ∈ [1, 2, 4, 8] ∨ (w = 3 ∧ n < 2 ^ 22)) := hd
    simp only [List.mem_cons, List.not_mem_nil, or_false] at hd
    by_cases h3 : w = 3
    · subst h3
      have := C07_width3 env n rest 3 16 c.isUnsigned c.isBinary out (.bit _) hn
      refine .inr ⟨{ c with value := .uint (n % 2 ^ 22) }, .bit (n % 2 ^ 22 : Nat), cell_ok ?_, hskel _, ⟨rfl, hnb rfl, e2⟩, .inr ?_⟩
      · simp only [TVal.enc, beEnc_length, e1, e2, e3]
        exact this
      · show n % 2 ^ 22 < n
        omega
    · refine .inl (cell_panic ?_)
      have := C07_widths567_panic env w n rest 3 16 c.isUnsigned c.isBinary out (.bit _)
        (by simp only [List.mem_cons, List.not_mem_nil, or_false]; omega)
      simp only [TVal.enc, beEnc_length, e1, e2, e3]
      exact this
  | year y =>
    have hd : y = 0 := Classical.byContradiction hd
    subst hd
    obtain ⟨e1, e2⟩ := hof
    refine .inr ⟨{ c with value := .uint 1900 }, .int (1900 : Nat), cell_ok ?_, hskel _, ⟨.inr ⟨_, rfl, rfl⟩, hnb rfl, hnbit nofun⟩, .inr ?_⟩
    · rw [e1, e2]
      exact parseData_year env 0 (by decide) rest _ _ _ _ out
    · show ((1900 : Nat) : Int) ≠ ((0 : Nat) : Int)
      decide
  | datetime k => exact absurd hy hd
  | timestamp t k =>
    obtain ⟨e1, e2⟩ := hof
    obtain ⟨-, f1, f2, f3, f4, f5⟩ := hf
    obtain ⟨k', hv, he, hp⟩ := C11_timestamp_12_hour_partial env.zone t rest f1 f2 f3
    have : k' = k := epoch_inj hv f4 (he.trans f5.symm)
    subst this
    refine .inr ⟨{ c with value := .str (clock12 k').text }, .text (clock12 k').text, cell_ok ?_, hskel _, ⟨rfl, hnb rfl, hnbit nofun⟩, .inr ⟨?_, ?_⟩⟩
    · rw [e1, e2]
      simp [parseData, DATA_INT, DATA_VARCHAR, DATA_CHAR, DATA_FIXBINARY, DATA_BINARY, MYSQL_TYPE_TIME, MYSQL_TYPE_TIMESTAMP, TVal.enc, hp]
    · intro e
      rw [e] at hp
      exact hd ((C11_iff env.zone t k' rest f1 f2 f3 hv he).mp hp)
    · show k'.text ≠ []
      unfold Civil.text
      simp
  | char s k =>
    have hd : ¬ Edged s := hd
    have hp := parseData_mysql env c.mtype (s ++ List.replicate k 32) rest (getFixedLength 13 c.len) c.isUnsigned c.isBinary out
    refine .inr ⟨{ c with value := .str (trimSpace (s ++ List.replicate k 32)) }, .text (trimSpace (s ++ List.replicate k 32)), cell_ok ?_, hskel _,
      ⟨rfl, hnb rfl, hnbit nofun⟩, .inr ⟨?_, ?_⟩⟩
    · rw [show c.ftype = 13 from hof]
      exact hp
    · intro e
      rw [e] at hp
      refine hd ((C14_char_partial env c.mtype s rest k (getFixedLength 13 c.len) c.isUnsigned c.isBinary out).mp ?_)
      rw [← List.length_replicate (n := k) (a := (32 : UInt8)), ← List.length_append, List.length_replicate]
      exact hp
    · show s ≠ []
      rintro rfl
      exact hd (by decide)
  | _ => exact absurd trivial hd

/-! ## What is printed for them -/

theorem reads_unique {t : Bytes} {g g' : List Tok} (h : Reads t g) (h' : Reads t g') : g = g' := by
  have a := h (b! ")") (.inr rfl)
  rw [h' (b! ")") (.inr rfl), show lex (b! ")") = some [.sym 41] by decide] at a
  exact (List.append_cancel_right (Option.some.inj a)).symm

/-- Nothing printed for a value denotes one that is `FarFrom` from it. -/
theorem apart_denotes (ff : FloatFmt) (c : Column) (g : List Tok) (v : SqlVal) (o' o : Orig) (ho : Holds c o') (hg : Reads (valueText ff c) g)
    (hv : evalExpr g = some v) (ha : FarFrom o' o) : ¬ Denotes ff v o := by
  intro hd
  cases o' with
  | null => exact ha
  | binary _ => exact ha
  | float _ => exact ha
  | double _ => exact ha
  | int j =>
    cases o with
    | int i =>
      obtain ⟨h1, h2, h3⟩ := ho
      have key : ∀ x, fmtV ff c.value = x → Numeral x j → c.value ≠ .nil ∧ c.value ≠ .str (b! "NULL") → False := by
        intro x hx hn hne
        rw [vt_plain ff h3 h2 hne, hx] at hg
        have hz : x ≠ b! "0001-01-01T00:00:00Z" := by
          rintro rfl
          exact absurd hn.1 (by
            rw [show intVal (b! "0001-01-01T00:00:00Z") = none by decide]
            nofun)
        cases reads_unique hg (reads_quoted x hz)
        cases hv
        have : Numeral x i := hd
        exact ha (Option.some.inj (hn.1.symm.trans this.1))
      rcases h1 with h1 | ⟨n, h1, rfl⟩
      · exact key (decInt j) (by rw [h1]; rfl) (numeral_decInt j) (by rw [h1]; exact ⟨nofun, nofun⟩)
      · exact key (dec n) (by rw [h1]; rfl) (numeral_dec n) (by rw [h1]; exact ⟨nofun, nofun⟩)
    | _ => exact ha
  | text s =>
    cases o with
    | text t =>
      obtain ⟨h1, h2, h3⟩ := ho
      by_cases hn : s = b! "NULL"
      · rw [vt_null ff h3 (by rw [h1, hn]), h2] at hg
        cases reads_unique hg reads_null
        cases hv
        exact hd
      · rw [vt_plain ff h3 h2 (by rw [h1]; exact ⟨nofun, fun e => hn (Val.str.inj e)⟩), h1] at hg
        cases reads_unique hg (reads_quoted' _)
        cases hv
        have hd : (if s = b! "0001-01-01T00:00:00Z" then [] else s) = t := hd
        split at hd
        · exact ha.2 hd.symm
        · exact ha.1 hd
    | _ => exact ha
  | bit m =>
    cases o with
    | bit n =>
      obtain ⟨h1, h2, h3⟩ := ho
      rw [vt_bit ff h3 h2 (by rw [h1]; exact ⟨nofun, nofun⟩), h1] at hg
      have hz : fmtV ff (.uint m) ≠ b! "0001-01-01T00:00:00Z" := by
        intro e
        have := numeral_dec m
        rw [show dec m = b! "0001-01-01T00:00:00Z" from e] at this
        exact absurd this.1 (by
          rw [show intVal (b! "0001-01-01T00:00:00Z") = none by decide]
          nofun)
      have hdec : (fmtV ff (.uint m)).flatMap escByte = dec m := by
        refine flatMap_plain _ fun x hx => ?_
        have := dec_digits m x hx
        unfold escByte escRune
        repeat' rw [if_neg (by omega)]
        rfl
      rw [escapeValue_ne hz, hdec] at hg
      have e : ∀ rest, b! "b'" ++ dec m ++ b! "'" ++ rest = 98 :: 39 :: (dec m ++ 39 :: rest) := by intro rest; simp
      have one : ∀ u, lexOne 98 (39 :: u) = (lexBits 0 u).map fun r => (.bits r.1, r.2) := fun u => rfl
      cases hq : binVal 0 (dec m) with
      | none =>
        have := hg (b! ")") (.inr rfl)
        rw [e, lex_fail rfl (by rw [one, lexBits_digits 0 _ _ (dec_digits m), hq]; rfl), show lex (b! ")") = some [.sym 41] by decide] at this
        cases this
      | some k =>
        have hk : Reads (b! "b'" ++ dec m ++ b! "'") [.bits k] := by
          intro rest hr
          rw [e]
          exact lex_step rfl (by rw [one, lexBits_digits 0 _ _ (dec_digits m), hq]; rfl) (by simp; omega)
        cases reads_unique hg hk
        cases hv
        have hd : k = n := hd
        have := (binVal_dec m k hq).1
        have ha : m < n := ha
        omega
    | _ => exact ha

/-! ## Rows -/

/-- the column holds what the tool reads for the value -/
def SeenAs (ff : FloatFmt) (c : Column) (y : Option TVal) : Prop :=
  ∃ o, Holds c o ∧ ((∀ v, y = some v → TVal.Decodable v) ∧ o = origOf ff y ∨ FarFrom o (origOf ff y))

theorem slot_seen (env : Env) (c c0 : Column) (hs : skelB true c = skelB true c0) (x : Cell) (y : Option TVal)
    (h : Slot env False UsualYear c0 x y) (rest : Bytes) (hl : 3 ≤ rest.length) (out out' : Out) (c' : Column)
    (he : decodeCell env c x rest out = .ok c' out') :
    out' = out ∧ skelB true c' = skelB true c0 ∧ (c0.name ∉ internalNames → SeenAs env.ff c' y) := by
  rcases h with ⟨hn, h0, b, rfl⟩ | ⟨hn, hb, hbit, rfl, _, hy⟩
  · have h2 := (skel_fields hs).2.1
    have e : decodeCell env c (.val b) rest out = .ok { c with value := .nil } out := by
      show GoM.bind _ _ out = _
      unfold GoM.bind
      rw [h2, h0]
      rfl
    rw [e] at he
    cases he
    exact ⟨rfl, hs, fun h => absurd hn h⟩
  · cases y with
    | none =>
      have e : decodeCell env c .null rest out = .ok { c with value := .str (b! "NULL") } out := rfl
      rw [show cellOfVal none = .null from rfl, e] at he
      cases he
      exact ⟨rfl, hs, fun _ => ⟨.null, rfl, .inl ⟨nofun, rfl⟩⟩⟩
    | some v =>
      obtain ⟨h1, h2, h3⟩ := hy v rfl
      rcases item_seen env c c0 hs hb hbit v h1 h2 h3 rest hl out with e | ⟨c'', o, e, e2, e3, e4⟩
      · rw [show cellOfVal (some v) = .val v.enc from rfl, e] at he
        cases he
      · rw [show cellOfVal (some v) = .val v.enc from rfl, e] at he
        cases he
        refine ⟨rfl, e2, fun _ => ⟨o, e3, ?_⟩⟩
        rcases e4 with ⟨e4, e5⟩ | e4
        · exact .inl ⟨fun w hw => by cases hw; exact e4, e5⟩
        · exact .inr e4

/-- the columns hold what the tool reads for the values -/
def SeenRow (ff : FloatFmt) (l cs : List Column) (ys : List (Option TVal)) : Prop :=
  cs.map (skelB true) = l.map (skelB true) ∧ All2 (fun c y => c.name ∉ internalNames → SeenAs ff c y) cs ys

theorem row_seen (env : Env) (l : List Column) (es : List (Cell × Option TVal)) (h : All2 (fun c e => Slot env False UsualYear c e.1 e.2) l es)
    (cols : List Column) (hs : cols.map (skelB true) = l.map (skelB true)) (row : Row) (hr : row.map (·.2) = es.map (·.1)) (post : Bytes)
    (hl : 3 ≤ post.length) (out out' : Out) (cols' : List Column) (he : decodeRow env cols row post out = .ok cols' out') :
    out' = out ∧ SeenRow env.ff l cols' (es.map (·.2)) := by
  induction h generalizing cols row cols' with
  | nil =>
    have : cols = [] := by simpa using hs
    subst this
    unfold decodeRow at he
    cases he
    exact ⟨rfl, rfl, .nil⟩
  | @cons c0 e l es h _ ih =>
    cases cols with
    | nil => simp at hs
    | cons c cols =>
      cases row with
      | nil => simp at hr
      | cons x row =>
        simp only [List.map_cons, List.cons.injEq] at hs hr
        unfold decodeRow at he
        rw [GoM.bind_run, hr.1] at he
        cases hc : decodeCell env c e.1 (rowData row ++ post) out with
        | panic _ => rw [hc] at he; cases he
        | hang _ => rw [hc] at he; cases he
        | ok c' o1 =>
          rw [hc] at he
          obtain ⟨rfl, e2, e3⟩ := slot_seen env c c0 hs.1 e.1 e.2 h (rowData row ++ post) (by rw [List.length_append]; omega) out o1 c' hc
          dsimp only at he
          rw [GoM.bind_run] at he
          cases hd : decodeRow env cols row post o1 with
          | panic _ => rw [hd] at he; cases he
          | hang _ => rw [hd] at he; cases he
          | ok cs o2 =>
            rw [hd] at he
            cases he
            obtain ⟨rfl, f2, f3⟩ := ih cols hs.2 row hr.2 cs hd
            refine ⟨rfl, by rw [List.map_cons, List.map_cons, e2, f2], .cons ?_ f3⟩
            rw [(skel_fields e2).1]
            exact e3

theorem rows_seen (env : Env) (l : List Column) (rows : List (Row × Bytes)) (ess : List (List (Cell × Option TVal)))
    (h : All2 (fun r es => r.1.map (·.2) = es.map (·.1) ∧ 3 ≤ r.2.length ∧ All2 (fun c e => Slot env False UsualYear c e.1 e.2) l es) rows ess)
    (s s' : PState) (hs : s.cols.map (skelB true) = l.map (skelB true)) (rs : List (List Column)) (he : decodeRows env rows s = .ok rs s') :
    s'.out = s.out ∧ s'.cols.map (skelB true) = l.map (skelB true) ∧ All2 (fun cs es => SeenRow env.ff l cs (es.map (·.2))) rs ess := by
  induction h generalizing s rs with
  | nil => cases he; exact ⟨rfl, hs, .nil⟩
  | @cons r es rows ess h _ ih =>
    obtain ⟨h1, h2, h3⟩ := h
    obtain ⟨row, post⟩ := r
    unfold decodeRows at he
    rw [GoM.bind_run] at he
    unfold decodeRowP at he
    cases hc : decodeRow env s.cols row post s.out with
    | panic _ => rw [hc] at he; cases he
    | hang _ => rw [hc] at he; cases he
    | ok cs o1 =>
      rw [hc] at he
      obtain ⟨rfl, e2⟩ := row_seen env l es h3 s.cols hs row h1 post h2 s.out o1 cs hc
      dsimp only at he
      rw [GoM.bind_run] at he
      cases hd : decodeRows env rows ⟨cs, s.out⟩ with
      | panic _ => rw [hd] at he; cases he
      | hang _ => rw [hd] at he; cases he
      | ok rs' s2 =>
        rw [hd] at he
        cases he
        obtain ⟨f1, f2, f3⟩ := ih ⟨cs, s.out⟩ e2.1 rs' hd
        exact ⟨f1, f2, .cons e2 f3⟩

theorem pages_seen (env : Env) (tables : TableMap) (db table : Bytes) (l : List Column) (defs : List ColDef) (hs : StoredAs tables l defs)
    (deleted : Bool) (ds : List Bytes) (hd : ∀ d ∈ ds, d.length = 16384) (rss : List (List (List (Option TVal))))
    (h : All2 (fun d rs => ReadablePage env False UsualYear l defs d rs ∧ ∃ cellss, PageHolds defs deleted d cellss ∧
      All2 (fun cells row => All2 (Stores l cells) (userColumns l) row) cellss rs) ds rss) (s s' : PState)
    (hc : s.cols.map (skelB true) = l.map (skelB true)) (he : pagesRun env tables db table deleted ds s = .ok () s') :
    ∃ rws, s'.out = s.out ++ rws.map (replaceStmt env.ff db table) ∧
      All2 (fun cs row => cs.map (skelB true) = l.map (skelB true) ∧ All2 (SeenAs env.ff) (userColumns cs) row) rws rss.flatten := by
  induction h generalizing s with
  | nil => cases he; exact ⟨[], by simp, .nil⟩
  | @cons d rs ds rss h _ ih =>
    obtain ⟨h1, cellss, h2, h3⟩ := h
    obtain ⟨rows, ess, e1, k1, k2⟩ := page_slots env False _ tables l defs hs deleted d (hd d (by simp)) rs h1 cellss h2 h3 s hc
    rw [pagesRun_cons, GoM.bind_run, printPage_full, e1] at he
    cases hr : decodeRows env rows s with
    | panic _ => rw [hr] at he; cases he
    | hang _ => rw [hr] at he; cases he
    | ok rws s1 =>
      rw [hr] at he
      dsimp only at he
      obtain ⟨f1, f2, f3⟩ := rows_seen env l rows ess k1 s s1 hc rws hr
      obtain ⟨rws', g1, g2⟩ := ih (fun x hx => hd x (List.mem_cons_of_mem _ hx)) ⟨s1.cols, s1.out ++ rws.map (replaceStmt env.ff db table)⟩ f2 he
      refine ⟨rws ++ rws', by rw [g1, List.map_append, ← List.append_assoc, ← f1], ?_⟩
      rw [List.flatten_cons]
      refine all2_append ?_ g2
      clear * - f3 k2
      induction f3 generalizing rs with
      | nil => cases k2; exact .nil
      | @cons cs es rws ess h _ ih =>
        cases k2 with
        | @cons _ row _ rs h2 k2 =>
          refine .cons ⟨h.1, ?_⟩ (ih k2)
          rw [← h2 cs (skels_names h.1)]
          have := h.2
          generalize es.map (·.2) = ys at this
          clear * - this
          induction this with
          | nil => exact .nil
          | @cons c y cs ys h _ ih =>
            unfold userColumns pickUser
            by_cases hn : c.name ∈ internalNames
            · rw [if_pos hn, List.filter_cons_of_neg (by simpa using hn)]
              exact ih
            · rw [if_neg hn, List.filter_cons_of_pos (by simpa using hn)]
              exact .cons (h hn) ih

/-! ## The command -/

theorem seen_restored (ff : FloatFmt) {us vs : List Column} (hm : us.map (·.mtype) = vs.map (·.mtype)) {row : List (Option TVal)}
    (h : All2 (SeenAs ff) us row) {xs : List SqlVal}
    (hx : All2 (fun c v => ∃ g, Reads (valueText ff c) g ∧ evalExpr g = some v ∧ ∀ o, Holds c o → Denotes ff v o → Restorable ff c o) us xs)
    (hd : All2 (Denotes ff) xs (row.map (origOf ff))) : All2 (Restored ff) vs row := by
  induction h generalizing vs xs with
  | nil =>
    cases vs with
    | nil => exact .nil
    | cons _ _ => cases hm
  | @cons u y us row h _ ih =>
    cases vs with
    | nil => cases hm
    | cons v vs =>
      rw [List.map_cons, List.map_cons] at hm
      injection hm with e1 e2
      cases hx with
      | @cons _ x _ xs hx hxs =>
        rw [List.map_cons] at hd
        cases hd with
        | cons hd hds =>
          refine .cons ?_ (ih e2 hxs hds)
          obtain ⟨o, h1, h2⟩ := h
          obtain ⟨g, g1, g2, g3⟩ := hx
          rcases h2 with ⟨h2, rfl⟩ | h2
          · exact restored_of_restorable ff e1 h2 (g3 _ h1 hd)
          · exact absurd hd (apart_denotes ff u g x o _ h1 g1 g2 h2)

/-- **C57, exactly, as to the values.** Whatever values a table holds — only bit-packed DATETIME values are supposed to lie in the years 1991
to 2099, see `C09_iff` for these — its rows are printed as they are stored if and only if all values are `Restored`. -/
theorem C57_values_iff (env : Env) (a : FromData) (sys ibd : Bytes) (trs : List TableRow) (crs : List ColumnRow)
    (irs : List IndexRow) (frs : List FieldRow) (t : TableRow) (r : IndexRow) (l : List Column) (defs : List ColDef) (deleted : Bool)
    (rows : List (List (Option TVal))) (hsys : a.sysFile = .ok sys) (hibd : a.tableFile = .ok ibd) (hdict : Dictionary sys trs crs irs frs)
    (ht : t ∈ trs) (hname : t.name = a.db ++ b! "/" ++ a.table) (hl : Layout irs frs t.id (columnsOf crs t.id) l)
    (hfile : TableFile env ibd r.id (columnsOf crs t.id) l defs deleted rows) (hop : deleted = true ↔ a.opType = b! "RecoveryData")
    (harr : ∀ t ∈ trs, UsualKeys irs frs crs t.id) (hh : Handled irs frs crs t.id)
    (hmark : Marked ibd r.id deleted)
    (hcompact : ∀ d ∈ leafPages ibd r.id deleted, isCompact d = true → ∀ k ∈ defs, k.kind.Readable)
    (hredundant : ∀ d ∈ leafPages ibd r.id deleted, isCompact d = false →
      (∀ k ∈ defs, ∀ m, k.kind = .varcharLatin1 m → m = 0) ∧ ∀ row ∈ rows, none ∉ row)
    (hyears : ∀ row ∈ rows, ∀ c, some (.datetime c) ∈ row → 1991 ≤ c.year ∧ c.year ≤ 2099) (hdb : 96 ∉ a.db) (htab : 96 ∉ a.table) (out : Out) :
    (∃ lines, fromDataFile env a out = .ok () (out ++ lines) ∧ All2 (Printed env.ff a.db a.table) lines rows) ↔
      ∀ row ∈ rows, All2 (Restored env.ff) (columnsOf crs t.id) row := by
  constructor
  · rintro ⟨lines, h1, h2⟩
    have hus : ∀ row ∈ rows, All2 (fun c x => (False → Restored env.ff c x) ∧ ∀ v, x = some v → UsualYear v) (columnsOf crs t.id) row := by
      intro row hrow
      have h1 := hfile.typed row hrow
      have h2 := hyears row hrow
      clear * - h1 h2
      generalize columnsOf crs t.id = cs at h1 ⊢
      induction h1 with
      | nil => exact .nil
      | @cons c x cs xs h _ ih =>
        refine .cons ⟨False.elim, fun v hv => ?_⟩ (ih fun v hv => h2 v (by simp [hv]))
        cases v with
        | datetime k => exact h2 k (by simp [hv])
        | _ => trivial
    obtain ⟨tables, rss, hst, hrows, hlen, hall, e⟩ := command_run env False UsualYear a sys ibd trs crs irs frs t r l defs deleted rows hsys hibd
      hdict ht hname hl hfile hop harr hh hmark hcompact hredundant hus out
    rw [h1] at e
    cases hp : pagesRun env tables a.db a.table deleted (leafPages ibd r.id deleted) ⟨l, out⟩ with
    | panic _ => rw [hp] at e; cases e
    | hang _ => rw [hp] at e; cases e
    | ok u s =>
      rw [hp] at e
      injection e with _ e
      obtain ⟨rws, g1, g2⟩ := pages_seen env tables a.db a.table l defs hst deleted _ hlen rss hall ⟨l, out⟩ s rfl hp
      rw [← e] at g1
      cases List.append_cancel_left g1
      rw [← hrows] at g2
      have huser := (handled_stored hh hl hfile.names).1
      clear * - h2 g2 huser hdb htab
      induction g2 with
      | nil => intro row hrow; cases hrow
      | @cons cs row rws rows h _ ih =>
        cases h2 with
        | cons hp hps =>
          intro row' hrow'
          rcases List.mem_cons.mp hrow' with rfl | hrow'
          · obtain ⟨vs, v1, v2⟩ := hp
            refine seen_restored env.ff ?_ h.2 (stmt_reads env.ff a.db a.table cs hdb htab _ v1).2.2 v2
            rw [← huser]
            exact user_mtypes h.1
          · exact ih hps row' hrow'
  · intro h
    exact C57_command_partial env a sys ibd trs crs irs frs t r l defs deleted rows hsys hibd hdict ht hname hl hfile hop harr hh hmark hcompact
      hredundant h hdb htab out

/-- The name `'NULL'` is not restored; so the rows of this file are not printed as stored. -/
example (out : Out) : ¬ ∃ lines, fromDataFile testEnv (shopArgs (b! "NULL") false) out = .ok () (out ++ lines) ∧
    All2 (Printed testEnv.ff (b! "shop") (b! "t")) lines [[some (.int 4 1), some (.varchar (b! "NULL"))], [some (.int 4 2), none]] := by
  have hn : ShopRow (b! "NULL") := .inr rfl
  intro h
  have := (C57_values_iff testEnv (shopArgs (b! "NULL") false) _ _ _ _ _ _ ⟨b! "shop/t", 20, 5⟩ ⟨20, 30, b! "PRIMARY", 1, 3⟩ _ _ false
    (shopRows (b! "NULL") false) rfl rfl (shop_dictionary (.inl rfl)) (by decide) (by decide) (shop_layout _ (by decide))
    (shopData_file testEnv hn false) (shop_op _ _) shop_arranged (shop_handled _ (by decide)) (shopData_marked hn false)
    (shopData_format hn false).1 (shopData_format hn false).2
    (by
      intro row hrow c hc
      rcases List.mem_cons.mp hrow with rfl | hrow
      · simp only [List.mem_cons, Option.some.injEq, List.not_mem_nil, or_false, reduceCtorEq] at hc
      · cases List.mem_singleton.mp hrow
        simp only [List.mem_cons, Option.some.injEq, List.not_mem_nil, or_false, reduceCtorEq] at hc)
    (show 96 ∉ b! "shop" by decide) (show 96 ∉ b! "t" by decide) out).mp h _ (List.mem_cons_self ..)
  rw [show columnsOf shopColumns 20 = [shopId, shopName] by decide] at this
  rcases this with _ | ⟨_, _ | ⟨h2, _⟩⟩
  exact h2.2.1 rfl

/-! ### A value that is read as another one

`CREATE TABLE shop.t (id INT PRIMARY KEY, born YEAR NOT NULL)` with one row, whose year is `y`. -/

def yearColumns : List ColumnRow := [⟨20, 0, b! "id", 6, 1283, 4⟩, ⟨20, 1, b! "born", 6, 1805, 1⟩]
def bornColumn : Column := { name := b! "born", ftype := 6, mtype := 13, pos := 1, len := 1, isNull := false, isUnsigned := true, tableId := 20 }
def yearLayout : List Column := [shopId, trxColumn 20 1, rollColumn 20 2, bornColumn]
def yearRow (y : Nat) : List (Option TVal) := [some (.int 4 7), some (.year y)]
def yearCells (y : Nat) : List Cell := [cellOfVal (some (.int 4 7)), .val (zeros 6), .val (zeros 7), cellOfVal (some (.year y))]
def yearSys : Bytes := writeSystem shopTables yearColumns (shopIndexes idKey) (shopFields idKey)
def yearData (y : Nat) : Bytes := writeTable 30 enumDefs [yearCells y] []
def yearArgs (y : Nat) : FromData :=
  { sysFile := .ok yearSys, tableFile := .ok (yearData y), db := b! "shop", table := b! "t", opType := b! "RecoveryStruct" }

theorem year_columns : columnsOf yearColumns 20 = [shopId, bornColumn] := by decide

set_option maxRecDepth 4000 in
theorem year_writable : Writable shopTables yearColumns (shopIndexes idKey) (shopFields idKey) :=
  { tables := by decide
    columns := by decide
    indexes := by decide
    fields := by decide
    onTables := by decide
    onColumns := by decide
    onIndexes := by decide
    onFields := by decide }

theorem year_dictionary : Dictionary yearSys shopTables yearColumns (shopIndexes idKey) (shopFields idKey) where
  file := system_written _ _ _ _ year_writable
  indexes := by decide
  ids := by decide
  names := (shop_dictionary (key := idKey) (.inl rfl)).names

/-- The years 0000 and 2024: the second is printed as stored, the first is not. -/
theorem year_printed (env : Env) (y : Nat) (hy : y = 0 ∨ y = 2024) (out : Out) :
    (∃ lines, fromDataFile env (yearArgs y) out = .ok () (out ++ lines) ∧ All2 (Printed env.ff (b! "shop") (b! "t")) lines [yearRow y]) ↔ y ≠ 0 := by
  have hfile : TableFile env (yearData y) 30 (columnsOf yearColumns 20) yearLayout enumDefs false [yearRow y] := by
    rcases hy with rfl | rfl
    all_goals
      exact table_written env 30 _ _ _ [yearCells _] [] false [yearRow _] (by decide) (by decide) (by decide) (by decide) (by decide) (by decide)
        (by decide) (.cons (by rw [year_columns]; exact .cons ⟨0, rfl, rfl⟩ (.cons ⟨3, rfl, rfl⟩ .nil)) .nil)
        (by
          intro row hrow
          cases List.mem_singleton.mp hrow
          rw [year_columns]
          refine .cons ?_ (.cons ?_ .nil)
          · rintro v ⟨⟩
            exact ⟨⟨rfl, by decide, by decide, rfl, rfl⟩, by decide, by decide, by decide⟩
          · rintro v ⟨⟩
            exact ⟨⟨rfl, rfl⟩, (by decide : _ = 0 ∨ 1901 ≤ _ ∧ _ ≤ 2155)⟩)
  refine Iff.trans (C57_values_iff env (yearArgs y) yearSys (yearData y) shopTables yearColumns (shopIndexes idKey) (shopFields idKey) ⟨b! "shop/t", 20, 5⟩
    ⟨20, 30, b! "PRIMARY", 1, 3⟩ yearLayout enumDefs false [yearRow y] rfl rfl year_dictionary (by decide) rfl
    (.key (r := ⟨20, 30, b! "PRIMARY", 1, 3⟩) (by decide) (by decide) (by decide) (by decide)) hfile
    (show false = true ↔ b! "RecoveryStruct" = b! "RecoveryData" by decide)
    (by
      intro t ht
      cases List.mem_singleton.mp ht
      exact .inr ⟨⟨20, 30, b! "PRIMARY", 1, 3⟩, by decide, .inr ⟨by decide, by decide, by decide, by decide⟩⟩)
    ⟨⟨20, 30, b! "PRIMARY", 1, 3⟩, by decide, by decide, .inr ⟨by decide, by decide, shopId, [bornColumn], by decide, by decide⟩⟩
    (by rcases hy with rfl | rfl <;> exact table_marked 30 enumDefs [yearCells _] [] false (by decide) (by decide))
    (fun _ _ _ => by decide)
    (fun d hd hc => by
      have : isCompact d = true := by
        rcases hy with rfl | rfl <;> exact table_compact 30 enumDefs [yearCells _] [] (by decide) (by decide) false d hd
      rw [this] at hc
      cases hc)
    (by
      intro row hrow c hc
      cases List.mem_singleton.mp hrow
      simp only [yearRow, List.mem_cons, Option.some.injEq, List.not_mem_nil, or_false, reduceCtorEq] at hc)
    (show 96 ∉ b! "shop" by decide) (show 96 ∉ b! "t" by decide) out) ?_
  rw [show columnsOf yearColumns 20 = [shopId, bornColumn] from year_columns]
  constructor
  · intro h
    rcases h _ (List.mem_singleton.mpr rfl) with _ | ⟨_, _ | ⟨h2, _⟩⟩
    exact h2.1
  · intro h row hrow
    cases List.mem_singleton.mp hrow
    exact .cons ⟨trivial, trivial⟩ (.cons ⟨h, trivial⟩ .nil)

end Verif.Props
