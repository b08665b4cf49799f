import Verif.Proofs.Reuse
/-!
# C62: reading a data file keeps the dictionary
-/

namespace Verif.Props
open Verif Spec

/-- The dictionary is exactly as before (for C62 as stated see `C62_statement`). -/
def C62_dictionary_statement : Prop :=
  ∀ (env : Env) (content db name : Bytes) (recovery : Bool) (s : IState), s.tables.WF →
    (parseDataPage env (.ok content) db name recovery s).st.tables = s.tables

/-- The definition of a column: all but the value and the binary flag, which the decoder overwrites. -/
def definition (c : Column) : Column := { c with value := .nil, isBinary := false }

theorem definition_of_skel {cs ds : List Column} (h : cs.map (skelB true) = ds.map (skelB true)) : cs.map definition = ds.map definition := by
  have e : ∀ l : List Column, l.map definition = (l.map (skelB true)).map definition := by
    intro l
    rw [List.map_map]
    rfl
  rw [e cs, e ds, h]

/-- the dictionary after a run, however it ends -/
theorem parseDataPage_dict (env : Env) (content db name : Bytes) (recovery : Bool) (s : IState) (hw : s.tables.WF) :
    SameDict s.tables (parseDataPage env (.ok content) db name recovery s).st.tables ∧
      (parseDataPage env (.ok content) db name recovery s).st.tables =
        writeBack s.tables db name (pagesRun env s.tables db name recovery (selectedPages content recovery)
          ⟨getTableColumnsFromDict s.tables db name, s.out⟩).st.cols := by
  have h := pagesRun_cols env s.tables db name recovery (selectedPages content recovery) (fun d hd => selectedPages_length hd)
    ⟨getTableColumnsFromDict s.tables db name, s.out⟩ rfl
  rw [parseDataPage_run]
  generalize pagesRun env s.tables db name recovery (selectedPages content recovery)
    ⟨getTableColumnsFromDict s.tables db name, s.out⟩ = r at *
  cases r <;> exact ⟨writeBack_dict s.tables hw db name _ h, rfl⟩

theorem SameDict.keys {m m' : TableMap} (h : SameDict m m') : m'.map (·.1) = m.map (·.1) := by
  unfold SameDict at h
  induction h with
  | nil => rfl
  | cons h _ ih => rw [List.map_cons, List.map_cons, h.1, ih]

/-- **C62**, in part: however the run over a data file ends, afterwards the dictionary has the same tables; all tables but the one asked for
are as they were, and of that table everything but the values and binary flags of the columns.  Missing: these, which keep what was
decoded last (`C62_dictionary_false`). -/
theorem C62_definitions_partial (env : Env) (content db name : Bytes) (recovery : Bool) (s : IState) (hw : s.tables.WF)
    (m : TableMap) (hm : m = (parseDataPage env (.ok content) db name recovery s).st.tables) :
    m.map (·.1) = s.tables.map (·.1) ∧ ∀ id t, s.tables.get? id = some t → ∃ t', m.get? id = some t' ∧
      ((t.db ≠ db ∨ t.name ≠ name) → t' = t) ∧ { t' with columns := t.columns } = t ∧
        t'.columns.map definition = t.columns.map definition := by
  obtain ⟨h1, h2⟩ := parseDataPage_dict env content db name recovery s hw
  rw [← hm] at h1 h2
  refine ⟨?_, fun id t ht => ?_⟩
  · exact h1.keys
  · rcases h1.get? id with ⟨h3, _⟩ | ⟨u, t', h3, h4, h5, h6⟩
    · rw [ht] at h3; cases h3
    · rw [ht] at h3
      injection h3 with h3
      subst h3
      refine ⟨t', h4, fun hne => ?_, h5, definition_of_skel h6⟩
      rw [h2] at h4
      unfold writeBack at h4
      cases hl : lookupTable s.tables db name with
      | none => rw [hl, ht] at h4; injection h4 with h4; exact h4.symm
      | some e =>
        rw [hl] at h4
        dsimp only at h4
        have he : e ∈ s.tables ∧ e.2.db = db ∧ e.2.name = name := by
          unfold lookupTable at hl
          have := List.mem_filter.mp (List.mem_of_getLast? hl)
          simpa using this
        have hid : id ≠ e.1 := by
          intro hc
          have := (GoMap.get?_iff hw e.1 e.2).mpr he.1
          rw [← hc, ht] at this
          injection this with this
          rcases hne with h | h
          · exact h (by rw [this]; exact he.2.1)
          · exact h (by rw [this]; exact he.2.2)
        have hg : ∀ l : TableMap, GoMap.get? (l.map fun t : Nat × Table =>
            if t.1 == e.1 then (t.1, { t.2 with columns := (pagesRun env s.tables db name recovery (selectedPages content recovery)
              ⟨getTableColumnsFromDict s.tables db name, s.out⟩).st.cols }) else t) id = GoMap.get? l id := by
          intro l
          induction l with
          | nil => rfl
          | cons x l ih =>
            unfold GoMap.get? at ih ⊢
            rw [List.map_cons]
            by_cases hx : x.1 = e.1
            · have h7 : (id == x.1) = false := by rw [hx]; simpa using hid
              obtain ⟨k, v⟩ := x
              rw [if_pos (by simpa using hx), List.lookup_cons, List.lookup_cons]
              simp only [h7]
              exact ih
            · have : (x.1 == e.1) = false := by simpa using hx
              rw [this]
              obtain ⟨k, v⟩ := x
              simp only [Bool.false_eq_true, if_false]
              rw [List.lookup_cons, List.lookup_cons, ih]
        rw [hg, ht] at h4
        injection h4 with h4
        exact h4.symm

/-- a data file and how it is to be read -/
structure Request where
  content : Bytes
  db : Bytes
  table : Bytes
  recovery : Bool

/-- read data files one after the other, with the same dictionary -/
def readAll (env : Env) : List Request → GoM IState Unit
  | [] => pure ()
  | r :: rs => do
    let _ ← parseDataPage env (.ok r.content) r.db r.table r.recovery
    readAll env rs

/-- what a file prints on its own -/
def requestOutput (env : Env) (tables : TableMap) (r : Request) : Out :=
  (selectedPages r.content r.recovery).flatMap (pageOutput env tables r.db r.table r.recovery)

theorem SameDict.sound {m m' : TableMap} (h : SameDict m m') {env : Env} {db name : Bytes} {recovery : Bool} {d : Bytes}
    (hd : d.length = 16384) (hs : Sound env m db name recovery d) :
    Sound env m' db name recovery d ∧ pageOutput env m' db name recovery d = pageOutput env m db name recovery d := by
  obtain ⟨hw, rows, s, ha, hb⟩ := hs
  have hcols := columns_dict h db name
  have hlen : (getTableColumnsFromDict m' db name).length = (getTableColumnsFromDict m db name).length := by
    simpa using congrArg List.length hcols
  have hrel := page_in_file env m db name recovery d hd ⟨getTableColumnsFromDict m' db name, []⟩ hcols
  have he : pageAlone env m' db name recovery d = parsePage env m d recovery (field d PAGE_FREE) ⟨getTableColumnsFromDict m' db name, []⟩ := by
    unfold pageAlone
    rw [parsePage_dict h]
  rw [ha] at hrel
  rw [← he] at hrel
  unfold Sound pageOutput
  generalize pageAlone env m' db name recovery d = r at *
  cases hrel with
  | @ok rows' _ s' _ hrows hst =>
    have hre : rows' = rows := by
      refine rows_eq hrows ?_ hb
      intro o offsets j hr h1 h2 h3 ho
      rw [List.length_map] at h3
      refine hw o offsets j hr h1 h2 h3 ?_
      rw [recOffsets_skel m d (isCompact d) o _ _ (map_skel_idem (f := true) (getTableColumnsFromDict m db name))] at ho
      exact ho
    subst hre
    refine ⟨⟨?_, rows', s', rfl, hb⟩, ?_⟩
    · intro o offsets j hr h1 h2 h3 ho
      rw [recOffsets_dict h, recOffsets_skel (f := true) m d (isCompact d) o _ _ hcols] at ho
      exact hw o offsets j hr h1 h2 (by omega) ho
    · rw [ha]
      dsimp only
      rw [hst.2.2, List.nil_append]

/-- Files read one after the other print what each of them prints on its own, if all their pages are sound. -/
theorem C62_files_partial (env : Env) (rs : List Request) (s : IState) (hw : s.tables.WF)
    (h : ∀ r ∈ rs, ∀ d ∈ selectedPages r.content r.recovery, Sound env s.tables r.db r.table r.recovery d) :
    ∃ m, readAll env rs s = .ok () ⟨m, s.out ++ rs.flatMap (requestOutput env s.tables)⟩ ∧ SameDict s.tables m := by
  have key : ∀ (rs : List Request) (m : TableMap) (out : Out), SameDict s.tables m →
      (∀ r ∈ rs, ∀ d ∈ selectedPages r.content r.recovery, Sound env s.tables r.db r.table r.recovery d) →
      ∃ m', readAll env rs ⟨m, out⟩ = .ok () ⟨m', out ++ rs.flatMap (requestOutput env s.tables)⟩ ∧ SameDict s.tables m' := by
    intro rs
    induction rs with
    | nil => intro m out hm _; exact ⟨m, by rw [List.flatMap_nil, List.append_nil]; rfl, hm⟩
    | cons r rs ih =>
      intro m out hm h
      have hwm : GoMap.WF m := by
        unfold GoMap.WF
        rw [hm.keys]
        exact hw
      obtain ⟨s', e1, e2⟩ := C27_sound_files_partial env r.content r.db r.table r.recovery ⟨m, out⟩ fun d hd =>
        (hm.sound (selectedPages_length hd) (h r (by simp) d hd)).1
      have hd := (parseDataPage_dict env r.content r.db r.table r.recovery ⟨m, out⟩ hwm).1
      rw [e1] at hd
      have ho : s'.out = out ++ requestOutput env s.tables r := by
        rw [e2]
        dsimp only
        congr 1
        unfold requestOutput
        refine List.flatMap_congr fun d hd => ?_
        exact (hm.sound (selectedPages_length hd) (h r (by simp) d hd)).2
      obtain ⟨m', f1, f2⟩ := ih s'.tables s'.out (hm.trans hd) fun x hx => h x (by simp [hx])
      refine ⟨m', ?_, f2⟩
      unfold readAll
      rw [GoM.bind_run, e1]
      dsimp only
      rw [show s' = ⟨s'.tables, s'.out⟩ from rfl, f1, ho, List.flatMap_cons, List.append_assoc]
  exact key rs s.tables s.out (SameDict.refl _) h

theorem two_wf : GoMap.WF (IState.tables ⟨twoTables, []⟩) := by
  unfold GoMap.WF twoTables
  simp

theorem two_selectedPages : selectedPages [twoPage (65536 - 88)].flatten false = [twoPage (65536 - 88)] := by
  unfold selectedPages
  rw [images_flatten _ (by simp only [List.mem_singleton, forall_eq]; exact twoPage_length _) (by simp),
    List.filter_cons_of_pos (by rw [decide_eq_true_eq]; exact two_selected false _), List.filter_nil]

/-- The hypotheses of `C62_files_partial` hold: the same file read twice. -/
example : ∃ m, readAll testEnv [⟨[twoPage (65536 - 88)].flatten, b! "d", b! "t", false⟩, ⟨[twoPage (65536 - 88)].flatten, b! "d", b! "t", false⟩]
    ⟨twoTables, []⟩ = .ok () ⟨m, [b! "replace into `d`.`t` values ('1');", b! "replace into `d`.`t` values ('2');",
      b! "replace into `d`.`t` values ('1');", b! "replace into `d`.`t` values ('2');"]⟩ := by
  obtain ⟨m, h, _⟩ := C62_files_partial testEnv [⟨[twoPage (65536 - 88)].flatten, b! "d", b! "t", false⟩, ⟨[twoPage (65536 - 88)].flatten, b! "d", b! "t", false⟩]
    ⟨twoTables, []⟩ two_wf (by
      intro r hr d hd
      simp only [List.mem_cons, List.not_mem_nil, or_false, or_self] at hr
      subst hr
      rw [two_selectedPages, List.mem_singleton] at hd
      subst hd
      exact two_sound)
  refine ⟨m, h.trans ?_⟩
  obtain ⟨rows, s, h3, _, h4⟩ := two_decode _ _
  have : requestOutput testEnv twoTables ⟨[twoPage (65536 - 88)].flatten, b! "d", b! "t", false⟩ =
      [b! "replace into `d`.`t` values ('1');", b! "replace into `d`.`t` values ('2');"] := by
    unfold requestOutput
    rw [two_selectedPages, List.flatMap_singleton, ← h4]
    unfold pageOutput
    rw [two_alone.trans h3]
  rw [List.flatMap_cons, List.flatMap_cons, this]
  rfl

theorem two_left (p q : Bytes) : ∃ rows c cs,
    decodeRows testEnv [(rowOf twoDefs (twoCells 1), p), (rowOf twoDefs (twoCells 2), q)] ⟨twoCols, []⟩ = .ok rows ⟨c :: cs, []⟩ ∧
    c.value = .int 2 := ⟨_, _, _, rfl, rfl⟩

theorem pagesRun_single {env : Env} {tables : TableMap} {db name : Bytes} {recovery : Bool} {d : Bytes} {s t : PState}
    {rows : List (List Column)} (h : parsePage env tables d recovery (field d PAGE_FREE) s = .ok rows t) :
    (pagesRun env tables db name recovery [d] s).st.cols = t.cols := by
  rw [pagesRun_cons, GoM.bind_run, printPage_full, h]
  rfl

/-- C62 is false of the code: the values of the last row stay in the dictionary. -/
theorem C62_dictionary_false : ¬ C62_dictionary_statement := by
  intro h
  have h1 := h testEnv [twoPage (65536 - 88)].flatten (b! "d") (b! "t") false ⟨twoTables, []⟩ two_wf
  obtain ⟨rows, c, cs, h3, h4⟩ := two_left _ _
  have h5 := two_alone.trans h3
  unfold pageAlone at h5
  rw [(parseDataPage_dict _ _ _ _ _ _ two_wf).2, two_selectedPages] at h1
  dsimp only at h1
  rw [pagesRun_single h5] at h1
  have h6 : writeBack twoTables (b! "d") (b! "t") (c :: cs) = [(1, { db := b! "d", name := b! "t", columns := c :: cs })] := rfl
  have h7 := h6.symm.trans h1
  unfold twoTables twoCols at h7
  simp only [List.cons.injEq, Prod.mk.injEq, and_true, true_and, Table.mk.injEq] at h7
  rw [h7.1] at h4
  cases h4

end Verif.Props
