import Verif.Props.SystemPages
import Verif.Props.DictPages
/-!
# C32, for system files
-/

namespace Verif.Props
open Verif Spec

/-! ## What the pages kept depend on -/

theorem fromLastRoot_filter (sp : SysHeader) (x : Nat) (P : List Bytes) :
    fromLastRoot sp x P = fromLastRoot sp x (P.filter fun d => field d PAGE_INDEX_ID == x) := by
  induction P with
  | nil => rfl
  | cons d P ih =>
    by_cases hd : field d PAGE_INDEX_ID = x
    · rw [List.filter_cons_of_pos (by simpa using hd), fromLastRoot, fromLastRoot, ← ih, List.filter_filter]
      simp only [Bool.and_self]
    · rw [List.filter_cons_of_neg (by simpa using hd), fromLastRoot, ← ih, if_neg (fun h => hd h.1)]
      cases fromLastRoot sp x P <;> rfl

theorem kept_of_ids {sp : SysHeader} {P P' : List Bytes} {x : Nat} (h : fromLastRoot sp x P = fromLastRoot sp x P') :
    (P.foldl (keepPage sp) []).get? x = (P'.foldl (keepPage sp) []).get? x := by
  rw [keepPages_exact, keepPages_exact, h]
  cases fromLastRoot sp x P' <;> rfl

theorem findSysHeader_find (P P' : List Bytes) (h : (P.find? fun d => pageNumber d == 7) = P'.find? fun d => pageNumber d == 7) :
    findSysHeader (P.map rawPage) = findSysHeader (P'.map rawPage) := by
  have key : ∀ P : List Bytes, findSysHeader (P.map rawPage) = match P.find? fun d => pageNumber d == 7 with
      | some d => parseSysPageHeader (rawPage d)
      | none => some {} := by
    intro P
    induction P with
    | nil => rfl
    | cons d P ih =>
      rw [List.map_cons, findSysHeader]
      by_cases h7 : pageNumber d = 7
      · rw [if_pos (show (rawPage d).fh.offset = SystemPageIdx from h7), List.find?_cons_of_pos (by simpa using h7)]
      · rw [if_neg (show ¬ (rawPage d).fh.offset = SystemPageIdx from h7), List.find?_cons_of_neg (by simpa using h7), ih]
  rw [key, key, h]

theorem find_unique {P P' : List Bytes} (hp : P.Perm P') (hn : (P.map pageNumber).Nodup) :
    (P.find? fun d => pageNumber d == 7) = P'.find? fun d => pageNumber d == 7 := by
  cases h : P.find? fun d => pageNumber d == 7 with
  | none =>
    symm
    rw [List.find?_eq_none] at h ⊢
    exact fun d hd => h d (hp.mem_iff.mpr hd)
  | some d =>
    have hd := List.find?_some h
    have hm := List.mem_of_find?_eq_some h
    cases h' : P'.find? fun d => pageNumber d == 7 with
    | none => exact absurd hd (List.find?_eq_none.mp h' d (hp.mem_iff.mp hm))
    | some d' =>
      have hd' := List.find?_some h'
      have hm' := hp.mem_iff.mpr (List.mem_of_find?_eq_some h')
      rw [page_unique hn hm hm' (by simp only [beq_iff_eq] at hd hd'; rw [hd, hd'])]

/-! ## C32 -/

/-- The full claim of C32: with its pages in another order a system file defines the same tables. -/
def C32_statement : Prop :=
  ∀ (env : Env) (ps ps' : List Bytes) (s : DState), (∀ p ∈ ps, p.length = 16384) → (ps.map pageNumber).Nodup → ps.Perm ps' →
    parseDictPage env (.ok ps.flatten) {} = .ok none s →
    ∃ s', parseDictPage env (.ok ps'.flatten) {} = .ok none s' ∧ ∀ id, (s'.tables.get? id).isSome ↔ (s.tables.get? id).isSome

/-- **C32 (partial).** The pages of a system file are put in another order, but not the pages of each of the four tables among
themselves.  Then both commands do the same: the header may come first or last, and the trees may be mixed in any way. -/
theorem C32_mixed_partial (env : Env) (ps ps' : List Bytes) (hl : ∀ p ∈ ps, p.length = 16384) (hn : (ps.map pageNumber).Nodup) (hp : ps.Perm ps')
    (h : ∀ x ∈ [1, 2, 3, 4], ps.filter (fun d => field d PAGE_INDEX_ID == x) = ps'.filter fun d => field d PAGE_INDEX_ID == x) :
    SameForAll env ps.flatten ps'.flatten := by
  have hl' : ∀ p ∈ ps', p.length = 16384 := fun p hm => hl p (hp.mem_iff.mpr hm)
  have hn' : (ps'.map pageNumber).Nodup := (hp.map pageNumber).nodup_iff.mp hn
  have e1 : filePages ps.flatten = ps := images_flatten _ hl hn
  have e2 : filePages ps'.flatten = ps' := images_flatten _ hl' hn'
  refine sameForAll_of_load fun out => load_alike env _ _ out ?_ fun sp _ x hx => ?_
  · rw [e1, e2]
    exact findSysHeader_find _ _ (find_unique hp hn)
  · rw [e1, e2]
    refine kept_of_ids ?_
    rw [fromLastRoot_filter, h x hx, ← fromLastRoot_filter]

/-- **C32, pages in front of the root.** A page of one of the tables, other than a root, in front of which there is no root of the table, has no
influence: the same dictionary is loaded without it. -/
theorem C32_dropped_load (env : Env) (pre post : List Bytes) (q : Bytes) (hl : ∀ p ∈ pre ++ q :: post, p.length = 16384)
    (hn : ((pre ++ q :: post).map pageNumber).Nodup) (h7 : pageNumber q ≠ 7)
    (hq : ∀ h ∈ pre ++ post, pageNumber h = 7 → ∀ d ∈ pre ++ [q], field d PAGE_INDEX_ID = field q PAGE_INDEX_ID →
      pageNumber d ∉ [field h DICT_HDR_TABLES, field h DICT_HDR_COLUMNS, field h DICT_HDR_INDEXES, field h DICT_HDR_FIELDS])
    (hh : ∃ h ∈ pre ++ post, pageNumber h = 7) :
    ∀ out, RRel (fun s s' : DState => s.tables = s'.tables ∧ s.out = s'.out) Eq
      (parseDictPage env (.ok (pre ++ q :: post).flatten) { out := out }) (parseDictPage env (.ok (pre ++ post).flatten) { out := out }) := by
  have hl' : ∀ p ∈ pre ++ post, p.length = 16384 := fun p hm => hl p (by simp at hm ⊢; tauto)
  have hsub : (pre ++ post).Sublist (pre ++ q :: post) := List.Sublist.append_left (List.sublist_cons_self _ _) _
  have hn' : ((pre ++ post).map pageNumber).Nodup := hn.sublist (hsub.map _)
  have e1 : filePages (pre ++ q :: post).flatten = pre ++ q :: post := images_flatten _ hl hn
  have e2 : filePages (pre ++ post).flatten = pre ++ post := images_flatten _ hl' hn'
  have hfind : ((pre ++ q :: post).find? fun d => pageNumber d == 7) = (pre ++ post).find? fun d => pageNumber d == 7 := by
    rw [List.find?_append, List.find?_append, List.find?_cons_of_neg (by simpa using h7)]
  refine fun out => load_alike env _ _ out ?_ fun sp hsp x hx => ?_
  · rw [e1, e2]
    exact findSysHeader_find _ _ hfind
  · rw [e1] at hsp ⊢
    rw [e2]
    refine kept_of_ids ?_
    obtain ⟨h, hm, hh7⟩ := hh
    have hroots : roots sp = [field h DICT_HDR_TABLES, field h DICT_HDR_COLUMNS, field h DICT_HDR_INDEXES, field h DICT_HDR_FIELDS] := by
      obtain ⟨sp', g1, g2⟩ := findSysHeader_eq (pre ++ q :: post) hl
      rw [hsp] at g1
      injection g1 with g1
      rw [g1, g2, hfind]
      cases hf : (pre ++ post).find? fun d => pageNumber d == 7 with
      | none => exact absurd (by simpa using hh7) (List.find?_eq_none.mp hf h hm)
      | some d =>
        have hd := List.find?_some hf
        rw [page_unique hn' (List.mem_of_find?_eq_some hf) hm (by rw [hh7]; simpa using hd)]
    by_cases hid : field q PAGE_INDEX_ID = x
    · have hnone : ∀ P : List Bytes, (∀ d ∈ P, field d PAGE_INDEX_ID = x → pageNumber d ∉ roots sp) → ∀ post, fromLastRoot sp x (P ++ post) = fromLastRoot sp x post := by
        intro P
        induction P with
        | nil => intro _ _; rfl
        | cons d P ih =>
          intro hP post
          rw [List.cons_append, fromLastRoot, ih (fun d hd => hP d (by simp [hd])) post]
          cases fromLastRoot sp x post with
          | some l => rfl
          | none => exact if_neg fun hc => hP d (by simp) hc.1 hc.2
      have hP : ∀ d ∈ pre ++ [q], field d PAGE_INDEX_ID = x → pageNumber d ∉ roots sp := by
        intro d hd hdx
        rw [hroots]
        exact hq h hm hh7 d hd (by rw [hdx, hid])
      rw [show pre ++ q :: post = (pre ++ [q]) ++ post by simp, hnone _ hP, hnone pre fun d hd => hP d (by simp [hd])]
    · rw [fromLastRoot_filter, List.filter_append, List.filter_cons_of_neg (by simpa using hid), ← List.filter_append, ← fromLastRoot_filter]

/-- **C32, pages in front of the root.** Both commands do the same without such a page. -/
theorem C32_dropped (env : Env) (pre post : List Bytes) (q : Bytes) (hl : ∀ p ∈ pre ++ q :: post, p.length = 16384)
    (hn : ((pre ++ q :: post).map pageNumber).Nodup) (h7 : pageNumber q ≠ 7)
    (hq : ∀ h ∈ pre ++ post, pageNumber h = 7 → ∀ d ∈ pre ++ [q], field d PAGE_INDEX_ID = field q PAGE_INDEX_ID →
      pageNumber d ∉ [field h DICT_HDR_TABLES, field h DICT_HDR_COLUMNS, field h DICT_HDR_INDEXES, field h DICT_HDR_FIELDS])
    (hh : ∃ h ∈ pre ++ post, pageNumber h = 7) :
    SameForAll env (pre ++ q :: post).flatten (pre ++ post).flatten :=
  sameForAll_of_load (C32_dropped_load env pre post q hl hn h7 hq hh)

/-! ## A second page of SYS_TABLES

The file of `DictWitness` with another page of SYS_TABLES, which holds the row of a table shop.u. -/

def secondRec : List OldCell :=
  [cellOf (b! "shop/u"), cellOf (zeros 6), cellOf (zeros 7), cellOf (beEnc 8 21), cellOf (beEnc 4 2), cellOf (beEnc 4 1), cellOf (zeros 8),
    cellOf (zeros 4), ⟨[], true⟩, cellOf (beEnc 4 6)]
def secondPage : Bytes := indexTop 21 1 141 ++ oldRecord 1 secondRec 116 ++ oldData secondRec

set_option maxRecDepth 4000 in
theorem second_page : TreePage TablesLeaf [none] (pad secondPage) [⟨b! "shop/u", 21, 6⟩] :=
  .leaf (padOld (by decide) (by decide))
    (padLinked (by decide) (by decide) (show link secondPage 101 = 141 by decide) (by decide) (padLast (by decide) (by decide) (by decide)))
    (.cons (padRecord (w := 1) (next := 116) (row := secondRec) (by decide) (by decide) (by decide) (by decide)) .nil)
    (.cons ⟨by decide, by decide, zeros 6, zeros 7, beEnc 4 2, beEnc 4 1, zeros 8, zeros 4, [], by decide⟩ .nil)

def bothTables : List TableRow := [⟨b! "shop/t", 20, 5⟩, ⟨b! "shop/u", 21, 6⟩]

set_option maxRecDepth 4000 in
theorem both_pages : (∀ p ∈ (shopPages idKey ++ [secondPage]).map pad, p.length = 16384) ∧
    ((shopPages idKey ++ [secondPage]).map pad).map pageNumber = [7, 8, 10, 11, 12, 20, 21] := by
  have hlen : ∀ p ∈ shopPages idKey ++ [secondPage], 90 ≤ p.length ∧ p.length ≤ 300 := by
    intro p hp
    rcases List.mem_append.mp hp with hp | hp
    · exact shop_length (.inl rfl) p hp
    · rw [List.mem_singleton.mp hp]; decide
  constructor
  · intro d hd
    obtain ⟨p, hp, rfl⟩ := List.mem_map.mp hd
    exact pad_length p (by have := hlen p hp; omega)
  · rw [List.map_map, List.map_congr_left (f := pageNumber ∘ pad) (g := pageNumber) fun p hp => numAt_pad p 4 4 (by have := hlen p hp; omega)]
    decide

theorem both_append : (shopPages idKey ++ [secondPage]).map pad = (shopPages idKey).map pad ++ [pad secondPage] := by
  rw [List.map_append, List.map_cons, List.map_nil]

set_option maxRecDepth 4000 in
theorem second_id : field (pad secondPage) PAGE_INDEX_ID = 1 := shop_field _ PAGE_INDEX_ID 1 (by decide) (by decide)

/-- With the page behind the others both tables are loaded. -/
theorem both_load (env : Env) (out : Out) : ∃ tables dict,
    parseDictPage env (.ok ((shopPages idKey ++ [secondPage]).map pad).flatten) { out := out } = .ok none { tables, dict, out } ∧
    (tables.get? 20).isSome ∧ (tables.get? 21).isSome := by
  have hs : SystemFile ((shopPages idKey ++ [secondPage]).map pad).flatten bothTables shopColumns (shopIndexes idKey) (shopFields idKey) := by
    have e1 : filePages ((shopPages idKey ++ [secondPage]).map pad).flatten = filePages (shopFile idKey) ++ [pad secondPage] := by
      have := images_flatten _ both_pages.1 (by rw [both_pages.2]; decide)
      rw [shop_pages (.inl rfl), ← both_append]
      exact this
    obtain ⟨h, hm, h7, ⟨d1, ds1, rss1, f1, r1, p1, q1⟩, h2, h3, h4⟩ := shop_system (key := idKey) (.inl rfl)
    have hf : ∀ x, x ≠ 1 → (filePages (shopFile idKey) ++ [pad secondPage]).filter (fun d => field d PAGE_INDEX_ID == x) =
        (filePages (shopFile idKey)).filter fun d => field d PAGE_INDEX_ID == x := by
      intro x hx
      rw [List.filter_append, List.filter_cons_of_neg, List.filter_nil, List.append_nil]
      rw [second_id]
      simpa using Ne.symm hx
    refine ⟨h, by rw [e1]; simp [hm], h7, ?_, ?_, ?_, ?_⟩
    · refine ⟨d1, ds1 ++ [pad secondPage], rss1 ++ [[⟨b! "shop/u", 21, 6⟩]], ?_, r1, all2_append p1 (.cons second_page .nil), ?_⟩
      · rw [e1, List.filter_append, f1, List.filter_cons_of_pos (by rw [second_id]; rfl)]
        rfl
      · rw [List.flatten_append, ← q1]
        rfl
    · unfold Tree at h2 ⊢; rw [e1, hf 2 (by decide)]; exact h2
    · unfold Tree at h3 ⊢; rw [e1, hf 3 (by decide)]; exact h3
    · unfold Tree at h4 ⊢; rw [e1, hf 4 (by decide)]; exact h4
  obtain ⟨lay, h1, -⟩ := C56_dictionary_partial env _ _ _ _ _ hs (by decide) (by
    intro t ht
    rcases List.mem_cons.mp ht with rfl | ht
    · exact shop_arranged _ (by decide)
    · cases List.mem_singleton.mp ht
      exact .inl (by decide))
  obtain ⟨tables, dict, e1, -, e3⟩ := h1 out
  refine ⟨tables, dict, e1, ?_, ?_⟩
  · have := e3 20
    cases hg : tables.get? 20 with
    | some t => rfl
    | none => rw [hg] at this; exact absurd rfl (this ⟨b! "shop/t", 20, 5⟩ (by decide))
  · have := e3 21
    cases hg : tables.get? 21 with
    | some t => rfl
    | none => rw [hg] at this; exact absurd rfl (this ⟨b! "shop/u", 21, 6⟩ (by decide))

set_option maxRecDepth 4000 in
/-- With the page in front of the others the second table is not loaded. -/
theorem second_dropped (env : Env) (out : Out) : ∃ s,
    parseDictPage env (.ok (pad secondPage :: (shopPages idKey).map pad).flatten) { out := out } = .ok none s ∧
    (s.tables.get? 20).isSome ∧ s.tables.get? 21 = none := by
  have hperm : (pad secondPage :: (shopPages idKey).map pad).Perm ((shopPages idKey ++ [secondPage]).map pad) := by
    rw [both_append]
    exact (List.perm_append_singleton _ _).symm
  have hl : ∀ p ∈ [] ++ pad secondPage :: (shopPages idKey).map pad, p.length = 16384 := fun p hp => both_pages.1 p (hperm.mem_iff.mp hp)
  have hn : (([] ++ pad secondPage :: (shopPages idKey).map pad).map pageNumber).Nodup :=
    (hperm.map pageNumber).nodup_iff.mpr (by rw [both_pages.2]; decide)
  have hnum : pageNumber (pad secondPage) = 21 := shop_field _ (4, 4) 21 (by decide) (by decide)
  have hdr : pad shopHeader ∈ (shopPages idKey).map pad := List.mem_map_of_mem (by simp [shopPages])
  have hdr7 : pageNumber (pad shopHeader) = 7 := shop_field shopHeader (4, 4) 7 (by decide) (by decide)
  have h := C32_dropped_load env [] ((shopPages idKey).map pad) (pad secondPage) hl hn (by rw [hnum]; decide) (by
    intro h hm h7 d hd _
    rw [List.nil_append] at hm
    rw [List.nil_append, List.mem_singleton] at hd
    have : h = pad shopHeader := page_unique hn (by simp [hm]) (by simp [hdr]) (by rw [h7, hdr7])
    rw [this, hd, hnum, show field (pad shopHeader) DICT_HDR_TABLES = 8 from shop_field shopHeader DICT_HDR_TABLES 8 (by decide) (by decide),
      show field (pad shopHeader) DICT_HDR_COLUMNS = 10 from shop_field shopHeader DICT_HDR_COLUMNS 10 (by decide) (by decide),
      show field (pad shopHeader) DICT_HDR_INDEXES = 11 from shop_field shopHeader DICT_HDR_INDEXES 11 (by decide) (by decide),
      show field (pad shopHeader) DICT_HDR_FIELDS = 12 from shop_field shopHeader DICT_HDR_FIELDS 12 (by decide) (by decide)]
    decide) ⟨_, hdr, hdr7⟩ out
  obtain ⟨tables, dict, e1, -, e3⟩ := shop_loads env out
  rw [List.nil_append, List.nil_append, show ((shopPages idKey).map pad).flatten = shopFile idKey from rfl, e1] at h
  revert h
  generalize parseDictPage env (.ok (pad secondPage :: (shopPages idKey).map pad).flatten) { out := out } = r
  intro h
  cases h with
  | ok he hs =>
    rename_i a s
    subst he
    refine ⟨s, rfl, ?_, ?_⟩
    · rw [hs.1]
      have := e3 20
      dsimp only
      cases hg : tables.get? 20 with
      | some t => rfl
      | none => rw [hg] at this; exact absurd rfl (this ⟨b! "shop/t", 20, 5⟩ (by decide))
    · rw [hs.1]
      have := e3 21
      dsimp only
      cases hg : tables.get? 21 with
      | none => rfl
      | some t =>
        rw [hg] at this
        obtain ⟨r, ixs, e, -⟩ := this
        cases (show lastWith (·.id == 21) shopTables = none by decide).symm.trans e

/-- C32 is false of the code: a page of SYS_TABLES in front of the root is not used, and its table is not loaded. -/
theorem C32_false : ¬ C32_statement := by
  intro h
  obtain ⟨tables, dict, e1, -, e3⟩ := both_load testEnv []
  have hperm : ((shopPages idKey ++ [secondPage]).map pad).Perm (pad secondPage :: (shopPages idKey).map pad) := by
    rw [both_append]
    exact List.perm_append_singleton _ _
  obtain ⟨s', g1, g2⟩ := h testEnv _ _ _ both_pages.1 (by rw [both_pages.2]; decide) hperm e1
  obtain ⟨s, k1, -, k3⟩ := second_dropped testEnv []
  rw [k1] at g1
  cases g1
  have := (g2 21).mpr e3
  rw [k3] at this
  cases this

set_option maxRecDepth 4000 in
/-- the hypotheses of `C32_mixed_partial` hold: the header is the last page -/
example (env : Env) : SameForAll env ((shopPages idKey).map pad).flatten ((shopPages idKey).tail.map pad ++ [pad shopHeader]).flatten := by
  have hl : ∀ p ∈ (shopPages idKey).map pad, p.length = 16384 := fun p hp => both_pages.1 p (by rw [both_append]; simp [hp])
  have hn : (((shopPages idKey).map pad).map pageNumber).Nodup := by
    have : ((shopPages idKey ++ [secondPage]).map pad).map pageNumber = [7, 8, 10, 11, 12, 20, 21] := both_pages.2
    rw [both_append, List.map_append] at this
    have h : (((shopPages idKey).map pad).map pageNumber ++ [pad secondPage].map pageNumber).Nodup := by rw [this]; decide
    exact (List.nodup_append.mp h).1
  refine C32_mixed_partial env _ _ hl hn (List.perm_append_singleton (pad shopHeader) ((shopPages idKey).tail.map pad)).symm ?_
  intro x hx
  have h8 : field (pad shopHeader) PAGE_INDEX_ID = 8 := shop_field shopHeader PAGE_INDEX_ID 8 (by decide) (by decide)
  show (pad shopHeader :: (shopPages idKey).tail.map pad).filter _ = _
  have hne : ¬ (field (pad shopHeader) PAGE_INDEX_ID == x) = true := by
    rw [h8]
    revert hx
    intro hx he
    rw [← beq_iff_eq.mp he] at hx
    revert hx
    decide
  rw [List.filter_cons_of_neg (p := fun d => field d PAGE_INDEX_ID == x) hne, List.filter_append,
    List.filter_cons_of_neg (p := fun d => field d PAGE_INDEX_ID == x) hne, List.filter_nil, List.append_nil]

end Verif.Props
