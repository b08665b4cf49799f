import Verif.Proofs.GoM
import Verif.Model.DataPage
/-! What the column values left over from earlier records can influence. -/

set_option linter.unusedSimpArgs false

namespace Verif

/-- Two outcomes of the same shape, with related states and results. -/
inductive RRel {σ τ α β : Type} (S : σ → τ → Prop) (P : α → β → Prop) : R σ α → R τ β → Prop where
  | ok {a b s t} : P a b → S s t → RRel S P (.ok a s) (.ok b t)
  | panic {s t} : S s t → RRel S P (.panic s) (.panic t)
  | hang {s t} : S s t → RRel S P (.hang s) (.hang t)

theorem RRel.bind {σ τ α β α' β' : Type} {S : σ → τ → Prop} {P : α → β → Prop} {Q : α' → β' → Prop}
    {m : GoM σ α} {n : GoM τ β} {f : α → GoM σ α'} {g : β → GoM τ β'} {s : σ} {t : τ}
    (h : RRel S P (m s) (n t)) (hf : ∀ a b s t, P a b → S s t → RRel S Q (f a s) (g b t)) :
    RRel S Q ((m >>= f) s) ((n >>= g) t) := by
  rw [GoM.bind_run, GoM.bind_run]
  generalize m s = r1 at h
  generalize n t = r2 at h
  cases h with
  | ok hp hs => exact hf _ _ _ _ hp hs
  | panic hs => exact .panic hs
  | hang hs => exact .hang hs

theorem RRel.mono {σ τ α β : Type} {S S' : σ → τ → Prop} {P P' : α → β → Prop} {r1 : R σ α} {r2 : R τ β}
    (h : RRel S P r1 r2) (hS : ∀ s t, S s t → S' s t) (hP : ∀ a b, P a b → P' a b) : RRel S' P' r1 r2 := by
  cases h with
  | ok hp hs => exact .ok (hP _ _ hp) (hS _ _ hs)
  | panic hs => exact .panic (hS _ _ hs)
  | hang hs => exact .hang (hS _ _ hs)

theorem RRel.lift {σ τ α : Type} {S : σ → τ → Prop} (o : Option α) {s : σ} {t : τ} (h : S s t) :
    RRel S Eq (GoM.lift o s) (GoM.lift o t) := by
  cases o with
  | none => exact .panic h
  | some a => exact .ok rfl h

theorem RRel.ite {σ τ α β : Type} {S : σ → τ → Prop} {P : α → β → Prop} {c : Prop} [Decidable c]
    {A1 B1 : GoM σ α} {A2 B2 : GoM τ β} {s : σ} {t : τ} (h1 : c → RRel S P (A1 s) (A2 t))
    (h2 : ¬ c → RRel S P (B1 s) (B2 t)) : RRel S P ((if c then A1 else B1) s) ((if c then A2 else B2) t) := by
  by_cases h : c
  · rw [if_pos h, if_pos h]; exact h1 h
  · rw [if_neg h, if_neg h]; exact h2 h

/-- A relation between outputs that is kept when the same line is printed on both sides. -/
def Stable (S : Out → Out → Prop) : Prop := ∀ o1 o2 l, S o1 o2 → S (o1 ++ l) (o2 ++ l)

/-- The column types for which the decoder itself sets `IsBinary`. -/
def setsBinary (ftype mtype : Nat) : Bool :=
  ftype == DATA_FIXBINARY && mtype == MYSQL_TYPE_STRING || ftype == DATA_BINARY && mtype == MYSQL_TYPE_VARCHAR

/-- The part of a column that the decoder never changes.  `IsBinary` is read only for BLOB columns, for which it is kept;
with `f`, it is part of the definition for all columns for which the decoder does not set it. -/
def skelB (f : Bool) (c : Column) : Column :=
  { c with value := .nil, isBinary := c.isBinary && (c.ftype == DATA_BLOB || f && !setsBinary c.ftype c.mtype) }

abbrev skel : Column → Column := skelB false

theorem skel_fields {f : Bool} {c d : Column} (h : skelB f c = skelB f d) :
    c.name = d.name ∧ c.ftype = d.ftype ∧ c.mtype = d.mtype ∧ c.pos = d.pos ∧ c.len = d.len ∧ c.isNull = d.isNull ∧
    c.isUnsigned = d.isUnsigned ∧ c.tableId = d.tableId ∧ (c.ftype = DATA_BLOB → c.isBinary = d.isBinary) := by
  have := Column.mk.inj h
  obtain ⟨h1, h2, h3, h4, h5, _, h7, h8, h9, h10⟩ := this
  refine ⟨h1, h2, h3, h4, h5, h7, h9, h10, ?_⟩
  intro hb
  have e : (c.ftype == DATA_BLOB) = true := by simpa using hb
  have e' : (d.ftype == DATA_BLOB) = true := by rw [← h2]; exact e
  rw [e, e'] at h8
  simpa using h8

theorem skel_flag {c d : Column} (h : skelB true c = skelB true d) (hs : setsBinary c.ftype c.mtype = false) :
    c.isBinary = d.isBinary := by
  have h2 := (skel_fields h).2.1
  have h3 := (skel_fields h).2.2.1
  have h8 : (c.isBinary && (c.ftype == DATA_BLOB || true && !setsBinary c.ftype c.mtype)) =
    (d.isBinary && (d.ftype == DATA_BLOB || true && !setsBinary d.ftype d.mtype)) := congrArg Column.isBinary h
  rw [← h2, ← h3, hs] at h8
  simpa using h8

theorem skel_idem (f : Bool) (c : Column) : skelB f (skelB f c) = skelB f c := by
  simp only [skelB, Bool.and_assoc, Bool.and_self]

theorem not_setsBinary_blob (m : Nat) : setsBinary DATA_BLOB m = false := rfl

/-- changing the value keeps the definition; so does changing the flag where the decoder does -/
theorem skel_update (f : Bool) (c : Column) (v : Val) (b : Bool)
    (h : setsBinary c.ftype c.mtype = true ∨ b = c.isBinary) : skelB f { c with value := v, isBinary := b } = skelB f c := by
  rcases h with h | h
  · have hb : (c.ftype == DATA_BLOB) = false := by
      cases hc : c.ftype == DATA_BLOB with
      | false => rfl
      | true => rw [show c.ftype = DATA_BLOB by simpa using hc, not_setsBinary_blob] at h; cases h
    simp only [skelB, h, hb, Bool.not_true, Bool.and_false, Bool.or_false]
  · rw [h]; rfl

theorem skel_eq_of {f : Bool} {c d : Column} (h : skelB f c = skelB f d) : skelB f d = skelB f c := h.symm

/-- The value decoder does not look at the binary flag, except for BLOB columns; it may set the flag, and then it does
so whatever the flag was. -/
theorem parseData_flag (S : Out → Out → Prop) (hS : Stable S) (env : Env) (t m : Nat) (data : Bytes) (fl fx : Nat)
    (u b1 b2 : Bool) (hb : t = DATA_BLOB → b1 = b2) (o1 o2 : Out) (hs : S o1 o2) :
    RRel S (fun x y => x.1 = y.1 ∧ (setsBinary t m = true ∧ x.2 = true ∧ y.2 = true ∨
        setsBinary t m = false ∧ x.2 = b1 ∧ y.2 = b2))
      (parseData env t m data fl fx u b1 o1) (parseData env t m data fl fx u b2 o2) := by
  by_cases ht : t = DATA_BLOB
  · have := hb ht; subst this; subst ht
    simp only [parseData, DATA_VARCHAR, DATA_CHAR, DATA_FIXBINARY, DATA_BINARY, DATA_INT, DATA_FLOAT, DATA_DOUBLE,
      DATA_DECIMAL, DATA_VARMYSQL, DATA_MYSQL, DATA_BLOB, Nat.reduceEqDiff, if_false, if_true, ite_false, ite_true]
    cases b1
    · refine RRel.bind (RRel.lift _ hs) fun a b s t hab hst => ?_
      exact .ok ⟨by rw [hab], Or.inr ⟨rfl, rfl, rfl⟩⟩ hst
    · refine RRel.bind (RRel.lift _ hs) fun a b s t hab hst => ?_
      exact .ok ⟨by rw [hab], Or.inr ⟨rfl, rfl, rfl⟩⟩ hst
  · have keyT : ∀ {α : Type} (o : Option α) (f : α → Val) (s1 s2 : Out), S s1 s2 → setsBinary t m = true →
        RRel S (fun x y => x.1 = y.1 ∧ (setsBinary t m = true ∧ x.2 = true ∧ y.2 = true ∨
            setsBinary t m = false ∧ x.2 = b1 ∧ y.2 = b2))
          ((GoM.lift o >>= fun a => pure (f a, true) : GoM Out (Val × Bool)) s1)
          ((GoM.lift o >>= fun a => pure (f a, true) : GoM Out (Val × Bool)) s2) := by
      intro α o f s1 s2 hs hq
      refine RRel.bind (RRel.lift _ hs) fun a b s t hab hst => ?_
      exact .ok ⟨by rw [hab], Or.inl ⟨hq, rfl, rfl⟩⟩ hst
    cases hq : setsBinary t m with
    | true =>
      rw [hq] at keyT
      unfold setsBinary at hq
      rw [Bool.or_eq_true, Bool.and_eq_true, Bool.and_eq_true] at hq
      simp only [beq_iff_eq] at hq
      rcases hq with ⟨h1, h2⟩ | ⟨h1, h2⟩
      · subst h1; subst h2
        exact keyT _ _ _ _ hs rfl
      · subst h1; subst h2
        exact keyT _ _ _ _ hs rfl
    | false =>
      have key : ∀ {α : Type} (o : Option α) (f : α → Val) (s1 s2 : Out), S s1 s2 →
          RRel S (fun x y => x.1 = y.1 ∧ (false = true ∧ x.2 = true ∧ y.2 = true ∨ false = false ∧ x.2 = b1 ∧ y.2 = b2))
            ((GoM.lift o >>= fun a => pure (f a, b1) : GoM Out (Val × Bool)) s1)
            ((GoM.lift o >>= fun a => pure (f a, b2) : GoM Out (Val × Bool)) s2) := by
        intro α o f s1 s2 hs
        refine RRel.bind (RRel.lift _ hs) fun a b s t hab hst => ?_
        exact .ok ⟨by rw [hab], Or.inr ⟨rfl, rfl, rfl⟩⟩ hst
      have key2 : ∀ {α β : Type} (o : Option α) (q : α → Option β) (f : β → Val) (s1 s2 : Out), S s1 s2 →
          RRel S (fun x y => x.1 = y.1 ∧ (false = true ∧ x.2 = true ∧ y.2 = true ∨ false = false ∧ x.2 = b1 ∧ y.2 = b2))
            ((GoM.lift o >>= fun a => GoM.lift (q a) >>= fun b => pure (f b, b1) : GoM Out (Val × Bool)) s1)
            ((GoM.lift o >>= fun a => GoM.lift (q a) >>= fun b => pure (f b, b2) : GoM Out (Val × Bool)) s2) := by
        intro α β o q f s1 s2 hs
        refine RRel.bind (RRel.lift _ hs) fun a b s t hab hst => ?_
        subst hab
        exact key (q a) f s t hst
      unfold parseData
      repeat' (refine RRel.ite ?_ ?_ <;> intro _)
      all_goals try exact key _ _ _ _ hs
      all_goals try exact key2 _ _ _ _ _ hs
      all_goals try exact RRel.ok ⟨rfl, Or.inr ⟨rfl, rfl, rfl⟩⟩ hs
      all_goals try exact absurd ‹t = DATA_BLOB› ht
      all_goals try exact key _ _ _ _ (hS _ _ _ hs)
      · exfalso
        have h1 : t = DATA_FIXBINARY := ‹t = DATA_FIXBINARY›
        have h2 : m = MYSQL_TYPE_STRING := ‹m = MYSQL_TYPE_STRING›
        rw [h1, h2] at hq; cases hq
      · exfalso
        have h1 : t = DATA_BINARY := ‹t = DATA_BINARY›
        have h2 : m = MYSQL_TYPE_VARCHAR := ‹m = MYSQL_TYPE_VARCHAR›
        rw [h1, h2] at hq; cases hq

/-- After decoding a value the columns agree. -/
theorem skel_decoded {f : Bool} {c d : Column} (h : skelB f c = skelB f d) {v w : Val} {x y : Bool} (hv : v = w)
    (hf : setsBinary c.ftype c.mtype = true ∧ x = true ∧ y = true ∨
      setsBinary c.ftype c.mtype = false ∧ x = c.isBinary ∧ y = d.isBinary) :
    skelB f { c with value := v, isBinary := x } = skelB f c ∧ skelB f { d with value := w, isBinary := y } = skelB f c ∧
    (f = true → ({ c with value := v, isBinary := x } : Column) = { d with value := w, isBinary := y }) := by
  obtain ⟨h1, h2, h3, h4, h5, h6, h7, h8, h9⟩ := skel_fields h
  refine ⟨skel_update f c v x ?_, ?_, ?_⟩
  · rcases hf with ⟨h, _⟩ | ⟨_, h, _⟩
    · exact Or.inl h
    · exact Or.inr h
  · rw [h]
    refine skel_update f d w y ?_
    rw [← h2, ← h3]
    rcases hf with ⟨h, _⟩ | ⟨_, _, h⟩
    · exact Or.inl h
    · exact Or.inr h
  · intro hft
    subst hft
    have hxy : x = y := by
      rcases hf with ⟨_, hx, hy⟩ | ⟨hs, hx, hy⟩
      · rw [hx, hy]
      · rw [hx, hy, skel_flag h hs]
    subst hv hxy
    cases c; cases d
    simp only at h1 h2 h3 h4 h5 h6 h7 h8
    subst h1 h2 h3 h4 h5 h6 h7 h8
    rfl

/-- The field length of the column points outside the page (and the column is not NULL), so that `parseRecords` leaves
the column as it is (parse.go:936-941). -/
def Outside (o : Bytes) (offsets : List Nat) (i : Nat) : Prop :=
  ∃ data len, recGetNthField o offsets i = some (data, len) ∧ data.length < len ∧ len ≠ 0xFFFFFFFF

/-- Two decoded columns: the same value and, with `f`, altogether the same column unless the value is NULL. -/
def SameCell (f : Bool) (c d : Column) : Prop := c.value = d.value ∧ (f = true → c.value ≠ .str (b! "NULL") → c = d)

theorem parseField_static (f : Bool) (S : Out → Out → Prop) (hS : Stable S) (env : Env) (o : Bytes) (offsets : List Nat)
    (i : Nat) (c d : Column) (hcd : skelB f c = skelB f d) (o1 o2 : Out) (hs : S o1 o2) :
    RRel S (fun c' d' => skelB f c' = skelB f c ∧ skelB f d' = skelB f c ∧
        (SameCell f c' d' ∨ Outside o offsets i ∧ c' = c ∧ d' = d))
      (parseField env o offsets i c o1) (parseField env o offsets i d o2) := by
  obtain ⟨_, h2, h3, _, h5, _, h7, _, h9⟩ := skel_fields hcd
  unfold parseField
  cases hg : recGetNthField o offsets i with
  | none => exact .panic hs
  | some p =>
    obtain ⟨data, len⟩ := p
    rw [GoM.lift_some_bind, GoM.lift_some_bind]
    dsimp only
    by_cases hl : data.length < len
    · rw [if_pos hl, if_pos hl]
      by_cases hn : len = 0xFFFFFFFF
      · rw [if_pos hn, if_pos hn]
        exact .ok ⟨rfl, hcd.symm, Or.inl ⟨rfl, fun _ h => absurd rfl h⟩⟩ hs
      · rw [if_neg hn, if_neg hn]
        exact .ok ⟨rfl, hcd.symm, Or.inr ⟨⟨data, len, hg, hl, hn⟩, rfl, rfl⟩⟩ hs
    · rw [if_neg hl, if_neg hl, ← h2, ← h3, ← h5, ← h7]
      refine RRel.bind (parseData_flag S hS env c.ftype c.mtype data len _ c.isUnsigned c.isBinary d.isBinary h9 _ _ hs) ?_
      rintro ⟨v, f⟩ ⟨w, g⟩ s t ⟨hv, hf⟩ hst
      obtain ⟨k1, k2, k3⟩ := skel_decoded hcd hv hf
      rw [← h2, ← h3, ← h5, ← h7] at k2 k3
      exact .ok ⟨k1, k2, Or.inl ⟨hv, fun hft _ => k3 hft⟩⟩ hst

/-- columns of the same definition whose values are the same, unless the field lies outside the page -/
def SameRow (f : Bool) (o : Bytes) (offsets : List Nat) : Nat → List Column → List Column → Prop
  | _, [], [] => True
  | i, c :: cs, d :: ds => (SameCell f c d ∨ Outside o offsets i) ∧ SameRow f o offsets (i + 1) cs ds
  | _, _, _ => False

theorem parseRecordsLoop_static (f : Bool) (S : Out → Out → Prop) (hS : Stable S) (env : Env) (o : Bytes) (offsets : List Nat)
    (cs ds : List Column) (i : Nat) (h : cs.map (skelB f) = ds.map (skelB f)) (o1 o2 : Out) (hs : S o1 o2) :
    RRel S (fun cs' ds' => cs'.map (skelB f) = cs.map (skelB f) ∧ ds'.map (skelB f) = cs.map (skelB f) ∧ SameRow f o offsets i cs' ds')
      (parseRecordsLoop env o offsets i cs o1) (parseRecordsLoop env o offsets i ds o2) := by
  induction cs generalizing ds i o1 o2 with
  | nil =>
    cases ds with
    | nil => exact .ok ⟨rfl, rfl, trivial⟩ hs
    | cons d ds => simp at h
  | cons c cs ih =>
    cases ds with
    | nil => simp at h
    | cons d ds =>
      simp only [List.map_cons, List.cons.injEq] at h
      unfold parseRecordsLoop
      refine RRel.bind (parseField_static f S hS env o offsets i c d h.1 _ _ hs) ?_
      rintro c' d' s t ⟨hc, hd, hv⟩ hst
      refine RRel.bind (ih ds (i + 1) h.2 s t hst) ?_
      rintro cs' ds' s t ⟨hcs, hds, hv'⟩ hst
      refine .ok ⟨by rw [List.map_cons, hc, hcs, List.map_cons], by rw [List.map_cons, hd, hds, List.map_cons], ?_, hv'⟩ hst
      rcases hv with hv | hv
      · exact Or.inl hv
      · exact Or.inr hv.1

theorem recOffsets_skel {f : Bool} (tables : TableMap) (d : Bytes) (compact : Bool) (o : Nat) (cs ds : List Column)
    (h : cs.map (skelB f) = ds.map (skelB f)) : recOffsets tables d compact o cs = recOffsets tables d compact o ds := by
  have hl : cs.length = ds.length := by simpa using congrArg List.length h
  unfold recOffsets
  rw [hl]
  cases cs with
  | nil =>
    cases ds with
    | nil => rfl
    | cons => simp at hl
  | cons c cs =>
    cases ds with
    | nil => simp at hl
    | cons d ds =>
      simp only [List.map_cons, List.cons.injEq] at h
      have := (skel_fields h.1).2.2.2.2.2.2.2.1
      simp only [List.getElem?_cons_zero, Option.bind_eq_bind, Option.bind_some, this]

theorem checkFieldSize_skel {f : Bool} (offsets : List Nat) (cs ds : List Column) (h : cs.map (skelB f) = ds.map (skelB f)) :
    checkFieldSize offsets cs = checkFieldSize offsets ds := by
  unfold checkFieldSize
  generalize 0 = i
  induction cs generalizing ds i with
  | nil =>
    cases ds with
    | nil => rfl
    | cons => simp at h
  | cons c cs ih =>
    cases ds with
    | nil => simp at h
    | cons d ds =>
      simp only [List.map_cons, List.cons.injEq] at h
      obtain ⟨_, h2, h3, _, h5, h6, h7, _, h9⟩ := skel_fields h.1
      unfold checkFieldSizeAux
      rw [h2, h5, h6, ih ds h.2]

/-- relation between page-walk states: the same definitions `K`, related outputs -/
def SameDefs (f : Bool) (S : Out → Out → Prop) (K : List Column) (s t : PState) : Prop :=
  s.cols.map (skelB f) = K ∧ t.cols.map (skelB f) = K ∧ S s.out t.out

/-- outcomes of decoding one record -/
def RowRel (f : Bool) (tables : TableMap) (d : Bytes) (compact : Bool) (o : Nat) (K : List Column) :
    Option (List Column) → Option (List Column) → Prop
  | none, none => True
  | some cs, some ds => cs.map (skelB f) = K ∧ ds.map (skelB f) = K ∧
      ∃ offsets, recOffsets tables d compact o K = some (some offsets) ∧ SameRow f (d.drop o) offsets 0 cs ds
  | _, _ => False

theorem map_skel_idem {f : Bool} (cs : List Column) : (cs.map (skelB f)).map (skelB f) = cs.map (skelB f) := by
  rw [List.map_map]
  exact List.map_congr_left fun c _ => skel_idem f c

theorem parseOne_static (f : Bool) (S : Out → Out → Prop) (hS : Stable S) (env : Env) (tables : TableMap) (d : Bytes)
    (compact : Bool) (o : Nat) (K : List Column) (s t : PState) (h : SameDefs f S K s t) :
    RRel (SameDefs f S K) (RowRel f tables d compact o K)
      (parseOne env tables d compact o s) (parseOne env tables d compact o t) := by
  obtain ⟨rfl, ht, hS'⟩ := h
  have h1 := ht.symm
  have h : SameDefs f S (s.cols.map (skelB f)) s t := ⟨rfl, ht, hS'⟩
  have hK : recOffsets tables d compact o (s.cols.map (skelB f)) = recOffsets tables d compact o s.cols :=
    recOffsets_skel _ _ _ _ _ _ (map_skel_idem _)
  unfold parseOne
  rw [GoM.get_bind, GoM.get_bind, ← recOffsets_skel tables d compact o s.cols t.cols h1]
  cases hr : recOffsets tables d compact o s.cols with
  | none => exact .panic h
  | some r =>
    simp only [GoM.lift_some_bind]
    cases r with
    | none => exact .ok trivial h
    | some offsets =>
      dsimp only
      rw [← checkFieldSize_skel offsets s.cols t.cols h1]
      cases hck : checkFieldSize offsets s.cols with
      | none => exact .panic h
      | some ck =>
        simp only [GoM.lift_some_bind]
        cases ck with
        | false => exact .ok trivial h
        | true =>
          simp only [if_true]
          have hsl : sliceFrom d o = some (d.drop o) := by
            unfold recOffsets at hr
            cases hh : sliceFrom d o with
            | none => rw [hh] at hr; cases hr
            | some x =>
              unfold sliceFrom at hh
              split at hh
              · rw [← hh]
              · cases hh
          simp only [hsl, GoM.lift_some_bind]
          unfold parseRecords
          have hloop := parseRecordsLoop_static f S hS env (d.drop o) offsets s.cols t.cols 0 h1 s.out t.out hS'
          simp only [GoM.bind_run, GoM.zoom_run, GoM.get_run]
          generalize parseRecordsLoop env (d.drop o) offsets 0 s.cols s.out = r1 at hloop
          generalize parseRecordsLoop env (d.drop o) offsets 0 t.cols t.out = r2 at hloop
          cases hloop with
          | panic hst => exact .panic ⟨rfl, ht, hst⟩
          | hang hst => exact .hang ⟨rfl, ht, hst⟩
          | @ok cs' ds' s' t' hp hst =>
            dsimp only
            have hst' : SameDefs f S (s.cols.map (skelB f)) ⟨cs', s'⟩ ⟨ds', t'⟩ := ⟨hp.1, hp.2.1, hst⟩
            rw [GoM.modify_run, GoM.modify_run]
            dsimp only
            cases recOffsDataSize offsets with
            | none => exact .panic hst'
            | some _ =>
              rw [GoM.lift_some, GoM.lift_some]
              dsimp only [GoM.pure_run]
              cases recOffsSize offsets with
              | none => exact .panic hst'
              | some _ =>
                exact .ok ⟨hp.1, hp.2.1, offsets, by rw [hK, hr], hp.2.2⟩ hst'

end Verif
