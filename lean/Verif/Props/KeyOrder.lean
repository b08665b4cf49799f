import Verif.Props.Dict
import Verif.Proofs.DictMove
/-!
# C31 for arbitrary primary keys: exactly when the column order is right
-/

namespace Verif.Props
open Verif Spec

theorem columnNamed_some {cols : List Column} {n : Bytes} (h : n ∈ cols.map (·.name)) :
    ∃ c ∈ cols, columnNamed cols n = some c ∧ c.name = n := by
  obtain ⟨c, hc, rfl⟩ := List.mem_map.mp h
  unfold columnNamed
  cases hf : cols.find? (·.name == c.name) with
  | none => exact absurd (List.find?_eq_none.mp hf c hc) (by simp)
  | some x => exact ⟨x, List.mem_of_find?_eq_some hf, rfl, by simpa using List.find?_some hf⟩

theorem keyColumns_names {fields : List IdxField} {cols : List Column} (h : ∀ f ∈ fields, f.name ∈ cols.map (·.name)) :
    (fields.filterMap (fun f => columnNamed cols f.name)).map (·.name) = fields.map (·.name) := by
  induction fields with
  | nil => rfl
  | cons f fs ih =>
    obtain ⟨c, _, h1, h2⟩ := columnNamed_some (h f (by simp))
    rw [List.filterMap_cons, h1]
    simp only [List.map_cons]
    rw [ih fun g hg => h g (by simp [hg]), h2]

/-- What the code does with any key, as far as the columns behind as many columns as the key has are concerned: nothing.
And no column appears that was not there. -/
theorem C31_behind (fields : List IdxField) (cols r : List Column) (h : moveColumns2First fields cols = some r) :
    r.length = cols.length ∧ r.drop fields.length = cols.drop fields.length ∧ r ⊆ cols :=
  ⟨moveOuter_length _ _ _ _ _ h, moveOuter_drop h, moveOuter_subset h⟩

/-- the code never puts the columns of a key of two or more columns in the right order -/
theorem composite_never {fields : List IdxField} {cols r : List Column} (hk : KeyOf fields cols) (h2 : 2 ≤ fields.length)
    (hr : moveColumns2First fields cols = some r) : r.map (·.name) ≠ (clusteredOrder fields cols).map (·.name) := by
  intro he
  obtain ⟨hnc, hnf, hkey⟩ := hk
  have hlen := moveOuter_length _ _ _ _ _ hr
  have hdrop := moveOuter_drop hr
  -- the names of the right order
  have hnames : r.map (·.name) = fields.map (·.name) ++
      (cols.filter fun c => !(fields.map (·.name)).contains c.name).map (·.name) := by
    rw [he]; unfold clusteredOrder; rw [List.map_append, keyColumns_names hkey]
  have hd : (r.drop fields.length).map (·.name) =
      (cols.filter fun c => !(fields.map (·.name)).contains c.name).map (·.name) := by
    rw [List.map_drop, hnames, List.drop_left' (by simp)]
  -- behind the first columns there is no key column
  have hfar : ∀ x ∈ cols.drop fields.length, x.name ∉ fields.map (·.name) := by
    intro x hx hm
    have h1 : x.name ∈ (r.drop fields.length).map (·.name) := by rw [hdrop]; exact List.mem_map_of_mem hx
    rw [hd] at h1
    obtain ⟨y, hy, e⟩ := List.mem_map.mp h1
    have h3 := (List.mem_filter.mp hy).2
    rw [e] at h3
    simp only [Bool.not_eq_true', List.contains_eq_mem, decide_eq_false_iff_not] at h3
    exact h3 hm
  have hml : fields.length ≤ cols.length := by
    have := congrArg List.length hnames
    simp only [List.length_map, List.length_append] at this
    omega
  -- so the first columns are all key columns
  have hnear : ∀ x ∈ cols.take fields.length, x.name ∈ fields.map (·.name) := by
    have h1 : (cols.filter fun c => !(fields.map (·.name)).contains c.name) =
        ((cols.take fields.length).filter fun c => !(fields.map (·.name)).contains c.name) ++ cols.drop fields.length := by
      conv => lhs; rw [← List.take_append_drop fields.length cols]
      rw [List.filter_append]
      congr 1
      rw [List.filter_eq_self]
      intro x hx
      simpa using hfar x hx
    have h3 := congrArg List.length hd
    rw [h1, hdrop] at h3
    simp only [List.length_map, List.length_append] at h3
    have h4 : ((cols.take fields.length).filter fun c => !(fields.map (·.name)).contains c.name) = [] :=
      List.eq_nil_of_length_eq_zero (by omega)
    intro x hx
    have h5 := List.filter_eq_nil_iff.mp h4 x hx
    simpa using h5
  -- the step for the last of the first columns
  unfold moveColumns2First at hr
  rw [show cols.length = (fields.length - 1) + (1 + (cols.length - fields.length)) by omega, moveOuter_add] at hr
  obtain ⟨c1, hc1, hr⟩ := Option.bind_eq_some_iff.mp hr
  have hl1 := moveOuter_length _ _ _ _ _ hc1
  have hn1 := moveOuter_take hc1 hnear
  have hd1 := moveOuter_drop hc1
  rw [Nat.zero_add, moveOuter_add] at hr
  obtain ⟨c2, hb2, hr⟩ := Option.bind_eq_some_iff.mp hr
  obtain ⟨c3, hc2, h3⟩ := moveOuter_succ hb2
  injection h3 with h3
  subst h3
  have hl2 := moveInner_length _ _ _ _ _ hc2
  have hd2 := moveInner_drop hc2 (m := fields.length) (by omega)
  rw [moveOuter_others fields _ _ c3 (by omega) ?_] at hr
  · injection hr with hr
    subst hr
    have hlt : fields.length - 1 < c1.length := by omega
    obtain ⟨z, hget⟩ : ∃ z, c1[fields.length - 1]? = some z := ⟨_, List.getElem?_eq_getElem hlt⟩
    have hmem : z.name ∈ fields.map (·.name) := by
      refine hn1 _ (List.mem_of_getElem? (i := fields.length - 1) ?_)
      rw [List.getElem?_take_of_lt (by omega), hget]
    obtain ⟨pre, f, post, hsp, hf, hpre, hpost⟩ := split_at_name hnf hmem
    have hhit := moveInner_hit (fields.length - 1) pre post f 0 c1 _ hget hpre hf
    rw [← hsp, hc2] at hhit
    obtain ⟨c4, h4, h5⟩ := Option.bind_eq_some_iff.mp hhit.symm
    obtain ⟨h6, h7⟩ := moveOne_eq h4
    have hnd := hnf
    rw [hsp, List.map_append, List.map_cons, List.nodup_append] at hnd
    cases pre with
    | nil =>
      -- the first key column was there, and stays
      have h8 : c4[fields.length - 1]? = some z := by
        rw [h7]
        simp only [List.length_nil, Nat.add_zero, List.take_zero, List.nil_append, Nat.zero_add]
        rw [show fields.length - 1 = (fields.length - 2) + 1 by omega, List.getElem?_cons_succ, List.getElem?_drop,
          show 1 + (fields.length - 2) = fields.length - 1 by omega, hget]
      rw [moveInner_other _ post _ c4 _ h8 hpost] at h5
      injection h5 with h5
      subst h5
      have h9 : (c4.map (·.name))[fields.length - 1]? = some f.name := by rw [List.getElem?_map, h8, hf]; rfl
      rw [hnames, List.getElem?_append_left (by simp; omega)] at h9
      have h10 : (fields.map (·.name))[0]? = some f.name := by rw [hsp]; rfl
      have h11 := (List.getElem?_inj (i := fields.length - 1) (j := 0) (by simp; omega) hnf).mp (h9.trans h10.symm)
      omega
    | cons g pre =>
      -- some other key column comes first
      have h8 : (c3.map (·.name))[0]? = some g.name := by
        rw [hnames, List.getElem?_append_left (by simp; omega), hsp]; rfl
      have hg : g.name ∉ (f :: post).map (·.name) := by
        intro hm
        exact hnd.2.2 g.name (by simp) g.name (by rw [← List.map_cons]; exact hm) rfl
      rcases moveInner_head h5 with h9 | ⟨x, h9, h10⟩
      · rw [List.getElem?_map, h9, h7] at h8
        simp only [List.getElem?_cons_zero, Option.map_some, Option.some.injEq] at h8
        exact hg (by rw [← h8, ← hf]; simp)
      · rw [List.getElem?_map, h9] at h8
        simp only [Option.map_some, Option.some.injEq] at h8
        exact hg (by rw [← h8, List.map_cons]; exact List.mem_cons_of_mem _ h10)
  · intro m c hm1 _ hc f hf e
    have h4 : c ∈ c3.drop fields.length := by
      refine List.mem_of_getElem? (i := m - fields.length) ?_
      rw [List.getElem?_drop, show fields.length + (m - fields.length) = m by omega, hc]
    rw [hd2, hd1] at h4
    exact hfar c h4 (e ▸ List.mem_map_of_mem hf)

/-- **C31**, exactly: the columns end up in the order of the clustered index if and only if the key is empty or is the first
column of the table.  In particular this never happens with a key of two or more columns. -/
theorem C31_iff (fields : List IdxField) (cols : List Column) (hk : KeyOf fields cols) :
    (∃ r, moveColumns2First fields cols = some r ∧ r.map (·.name) = (clusteredOrder fields cols).map (·.name)) ↔
      fields = [] ∨ ∃ f c rest, fields = [f] ∧ cols = c :: rest ∧ f.name = c.name := by
  constructor
  · rintro ⟨r, hr, he⟩
    match fields with
    | [] => exact Or.inl rfl
    | [f] =>
      right
      obtain ⟨hnc, _, hkey⟩ := hk
      obtain ⟨c, hc, hn⟩ := List.mem_map.mp (hkey f (by simp))
      obtain ⟨p, hp, rfl⟩ := List.getElem_of_mem hc
      rw [C31_single cols hnc f p hp hn.symm] at hr
      injection hr with hr
      subst hr
      cases cols with
      | nil => cases hp
      | cons a rest =>
        refine ⟨f, a, rest, rfl, rfl, ?_⟩
        cases p with
        | zero => exact hn.symm
        | succ p =>
          exfalso
          have h1 : (clusteredOrder [f] (a :: rest)).map (·.name) = f.name ::
              ((a :: rest).filter fun c => !([f].map (·.name)).contains c.name).map (·.name) := by
            unfold clusteredOrder
            rw [List.map_append, keyColumns_names hkey]
            rfl
          rw [h1] at he
          simp only [List.set_cons_zero, List.map_cons, List.cons.injEq] at he
          have h2 : f.name ∈ rest.map (·.name) := by
            rw [← hn]; exact List.mem_map_of_mem (List.getElem_mem _)
          rw [he.2] at h2
          obtain ⟨y, hy, e⟩ := List.mem_map.mp h2
          have h3 := (List.mem_filter.mp hy).2
          rw [e] at h3
          simp at h3
    | f :: g :: fs => exact absurd he (composite_never hk (by simp) hr)
  · rintro (rfl | ⟨f, c, rest, rfl, rfl, hf⟩)
    · refine ⟨cols, moveColumns2First_nil cols, ?_⟩
      unfold clusteredOrder
      simp
    · exact ⟨_, C31_first_column_partial c rest hk.1 f hf, rfl⟩

/-- When a key column stands behind as many columns as the key has, a column of the table is lost: the loaded table has no
column of that name. -/
theorem C31_loses (fields : List IdxField) (cols : List Column) (hk : KeyOf fields cols) (p : Nat) (hp : p < cols.length)
    (hfar : fields.length ≤ p) (hkey : cols[p].name ∈ fields.map (·.name)) :
    ∃ r, moveColumns2First fields cols = some r ∧ ∃ c ∈ cols, c.name ∉ r.map (·.name) := by
  obtain ⟨hnc, hnf, _⟩ := hk
  obtain ⟨r, hr, hl⟩ := C31_total fields cols (by omega)
  refine ⟨r, hr, ?_⟩
  have hsub := moveOuter_subset hr
  have hd := moveOuter_drop hr
  -- the result starts with a column that is also further behind
  have hdup : ∀ k i columns r, i + k = columns.length → moveOuter fields k i columns = some r → i ≤ p → p < columns.length →
      ∀ c, columns[p]? = some c → c.name ∈ fields.map (·.name) →
      ∃ q x, fields.length ≤ q ∧ r[q]? = some x ∧ r[0]? = some x := by
    intro k
    induction k with
    | zero => intro i columns r hi _ h1 h2; omega
    | succ k ih =>
      intro i columns r hi h h1 h2 c hc hcn
      obtain ⟨r', h3, h4⟩ := moveOuter_succ h
      have hl' := moveInner_length _ _ _ _ _ h3
      have hd' := moveInner_drop h3 (m := fields.length) (by omega)
      have same : ∀ q, fields.length ≤ q → r'[q]? = columns[q]? := by
        intro q hq
        have := congrArg (·[q - fields.length]?) hd'
        simpa [List.getElem?_drop, show fields.length + (q - fields.length) = q by omega] using this
      rcases Nat.lt_or_ge i p with hip | hip
      · exact ih (i + 1) r' r (by omega) h4 (by omega) (by omega) c (by rw [same p hfar, hc]) hcn
      · have hpi : i = p := by omega
        subst hpi
        -- from here on every step keeps the property
        have keep : ∀ k i columns r, fields.length ≤ i → i + k ≤ columns.length → moveOuter fields k i columns = some r →
            (∃ q x, fields.length ≤ q ∧ columns[q]? = some x ∧ columns[0]? = some x) →
            ∃ q x, fields.length ≤ q ∧ r[q]? = some x ∧ r[0]? = some x := by
          intro k
          induction k with
          | zero => intro i columns r _ _ h hq; injection h with h; rw [← h]; exact hq
          | succ k ih2 =>
            intro i columns r hi1 hi2 h hq
            obtain ⟨r', h3, h4⟩ := moveOuter_succ h
            have hl' := moveInner_length _ _ _ _ _ h3
            have hd' := moveInner_drop h3 (m := fields.length) (by omega)
            have same : ∀ q, fields.length ≤ q → r'[q]? = columns[q]? := by
              intro q hq
              have := congrArg (·[q - fields.length]?) hd'
              simpa [List.getElem?_drop, show fields.length + (q - fields.length) = q by omega] using this
            refine ih2 (i + 1) r' r (by omega) (by omega) h4 ?_
            have hci : columns[i]? = some (columns[i]'(by omega)) := List.getElem?_eq_getElem _
            by_cases hm : (columns[i]'(by omega)).name ∈ fields.map (·.name)
            · exact ⟨i, _, hi1, by rw [same i hi1, hci], moveInner_far hnf hci hi1 hm h3⟩
            · have h5 := moveInner_other i fields 0 columns _ hci fun f hf e => hm (e ▸ List.mem_map_of_mem hf)
              rw [h5] at h3
              injection h3 with h3
              rw [← h3]
              exact hq
        refine keep k (i + 1) r' r (by omega) (by omega) h4 ⟨i, c, hfar, by rw [same i hfar, hc], ?_⟩
        exact moveInner_far hnf hc hfar hcn h3
  obtain ⟨q, x, hq, h1, h2⟩ := hdup cols.length 0 cols r (by omega) hr (by omega) hp _ (List.getElem?_eq_getElem hp) hkey
  have hq0 : q ≠ 0 := by
    intro e
    subst e
    have : fields.length = 0 := by omega
    rw [List.length_eq_zero_iff.mp this] at hkey
    simp at hkey
  apply Classical.byContradiction
  intro hall
  have hall' : cols.map (·.name) ⊆ r.map (·.name) := by
    intro n hn
    obtain ⟨c, hc, rfl⟩ := List.mem_map.mp hn
    apply Classical.byContradiction
    intro hm
    exact hall ⟨c, hc, hm⟩
  have hperm : (cols.map (·.name)).Perm (r.map (·.name)) :=
    (List.subperm_of_subset hnc hall').perm_of_length_le (by simp; omega)
  have hnr : (r.map (·.name)).Nodup := hperm.nodup_iff.mp hnc
  have h3 : (r.map (·.name))[q]? = (r.map (·.name))[0]? := by rw [List.getElem?_map, List.getElem?_map, h1, h2]
  have hql : q < (r.map (·.name)).length := by
    rw [List.length_map]
    exact (List.getElem?_eq_some_iff.mp h1).1
  exact hq0 ((List.getElem?_inj hql hnr).mp h3)

/-! Examples: the conditions of the theorems on concrete keys. -/

def abcd : List Column := [named (b! "a"), named (b! "b"), named (b! "c"), named (b! "d")]

example : KeyOf [⟨0, b! "b"⟩, ⟨1, b! "d"⟩] abcd := by decide

/-- key `(b, d)` of a table `a, b, c, d`: column `a` and the order are lost -/
example : ∃ r, moveColumns2First [⟨0, b! "b"⟩, ⟨1, b! "d"⟩] abcd = some r ∧ ∃ c ∈ abcd, c.name ∉ r.map (·.name) :=
  C31_loses _ _ (by decide) 3 (by decide) (by decide) (by decide)

example : ¬ ∃ r, moveColumns2First [⟨0, b! "b"⟩, ⟨1, b! "a"⟩] abcd = some r ∧
    r.map (·.name) = (clusteredOrder [⟨0, b! "b"⟩, ⟨1, b! "a"⟩] abcd).map (·.name) := by
  rw [C31_iff _ _ (by decide)]
  rintro (h | ⟨f, c, rest, h, _⟩)
  · cases h
  · cases h

example : ∃ r, moveColumns2First [⟨0, b! "a"⟩] abcd = some r ∧
    r.map (·.name) = (clusteredOrder [⟨0, b! "a"⟩] abcd).map (·.name) :=
  (C31_iff _ _ (by decide)).mpr (Or.inr ⟨_, _, _, rfl, rfl, rfl⟩)

end Verif.Props
