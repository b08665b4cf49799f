import Verif.Spec.Script
import Verif.Proofs.Sql
/-!
# Lemmas about scripts
-/

namespace Verif.Spec
open Verif

theorem lexString_more (t x r b : Bytes) (h : lexString t = some (x, r)) : lexString (t ++ 10 :: b) = some (x, r ++ 10 :: b) := by
  induction t using lexString.induct generalizing x r with
  | case1 => cases h
  | case2 t ih =>
    rw [lexString] at h
    obtain ⟨⟨y, s⟩, hq, e⟩ := Option.map_eq_some_iff.mp h
    cases e
    rw [List.cons_append, List.cons_append, lexString, ih y s hq]
    rfl
  | case3 t hne =>
    rw [lexString_close t (by
      intro hh
      cases t with
      | nil => cases hh
      | cons c t => exact hne t (by rw [Option.some.inj hh]))] at h
    cases h
    rw [List.cons_append, lexString_close]
    intro hh
    cases t with
    | nil => cases hh
    | cons c t => exact hne t (by rw [Option.some.inj hh])
  | case4 => cases h
  | case5 c t ih =>
    rw [lexString_esc] at h
    obtain ⟨⟨y, s⟩, hq, e⟩ := Option.map_eq_some_iff.mp h
    cases e
    rw [List.cons_append, List.cons_append, lexString_esc, ih y s hq]
    rfl
  | case6 c t h1 h2 h3 h4 ih =>
    have hc39 : c ≠ 39 := fun hc => h2 hc
    have hc92 : c ≠ 92 := by
      rintro rfl
      cases t with
      | nil => exact h3 rfl rfl
      | cons d t => exact h4 d t rfl rfl
    rw [lexString_plain _ _ hc39 hc92] at h
    obtain ⟨⟨y, s⟩, hq, e⟩ := Option.map_eq_some_iff.mp h
    cases e
    rw [List.cons_append, lexString_plain _ _ hc39 hc92, ih y s hq]
    rfl

theorem lexIdent_more (t x r b : Bytes) (h : lexIdent t = some (x, r)) : lexIdent (t ++ 10 :: b) = some (x, r ++ 10 :: b) := by
  induction t using lexIdent.induct generalizing x r with
  | case1 => cases h
  | case2 t ih =>
    rw [lexIdent] at h
    obtain ⟨⟨y, s⟩, hq, e⟩ := Option.map_eq_some_iff.mp h
    cases e
    rw [List.cons_append, List.cons_append, lexIdent, ih y s hq]
    rfl
  | case3 t hne =>
    cases t with
    | nil =>
      cases h
      rfl
    | cons c t =>
      have hc : c ≠ 96 := fun hc => hne t (by rw [hc])
      have e : ∀ u : Bytes, lexIdent (96 :: c :: u) = some ([], c :: u) := by
        intro u
        rw [lexIdent]
        rintro _ ⟨⟩
        exact hc rfl
      rw [e] at h
      cases h
      rw [List.cons_append, List.cons_append, e]
  | case4 c t _ hc ih =>
    have hc : c ≠ 96 := hc
    rw [lexIdent_plain _ _ hc] at h
    obtain ⟨⟨y, s⟩, hq, e⟩ := Option.map_eq_some_iff.mp h
    cases e
    rw [List.cons_append, lexIdent_plain _ _ hc, ih y s hq]
    rfl

theorem lexBits_more (t r b : Bytes) (acc n : Nat) (h : lexBits acc t = some (n, r)) : lexBits acc (t ++ 10 :: b) = some (n, r ++ 10 :: b) := by
  induction acc, t using lexBits.induct generalizing n r with
  | case1 acc t ih => exact ih r n h
  | case2 acc t ih => exact ih r n h
  | case3 acc t =>
    cases h
    rfl
  | case4 acc t h1 h2 h3 =>
    rw [lexBits] at h
    · cases h
    · exact h1
    · exact h2
    · exact h3

theorem lexOne_more (c : UInt8) (t r b : Bytes) (k : Tok) (h : lexOne c t = some (k, r)) : lexOne c (t ++ 10 :: b) = some (k, r ++ 10 :: b) := by
  unfold lexOne at h ⊢
  by_cases h1 : c = 39
  · rw [if_pos h1] at h ⊢
    obtain ⟨⟨y, s⟩, hq, e⟩ := Option.map_eq_some_iff.mp h
    cases e
    rw [lexString_more t y s b hq]
    rfl
  rw [if_neg h1] at h ⊢
  by_cases h2 : c = 96
  · rw [if_pos h2] at h ⊢
    obtain ⟨⟨y, s⟩, hq, e⟩ := Option.map_eq_some_iff.mp h
    cases e
    rw [lexIdent_more t y s b hq]
    rfl
  rw [if_neg h2] at h ⊢
  have hh : (t ++ 10 :: b).head? = some 39 ↔ t.head? = some 39 := by
    cases t with
    | nil => simp
    | cons => simp
  by_cases h3 : (c = 98 ∨ c = 66) ∧ t.head? = some 39
  · rw [if_pos h3] at h
    rw [if_pos ⟨h3.1, hh.mpr h3.2⟩]
    obtain ⟨⟨y, s⟩, hq, e⟩ := Option.map_eq_some_iff.mp h
    cases e
    cases t with
    | nil => cases h3.2
    | cons d t =>
      rw [List.cons_append, List.tail_cons]
      rw [lexBits_more t s b 0 y hq]
      rfl
  rw [if_neg h3] at h
  rw [if_neg fun hx => h3 ⟨hx.1, hh.mp hx.2⟩]
  by_cases h4 : wordChar c = true
  · rw [if_pos h4] at h ⊢
    dsimp only at h ⊢
    have ht : ∀ s : Bytes, (s ++ 10 :: b).takeWhile wordChar = s.takeWhile wordChar ∧ (s ++ 10 :: b).dropWhile wordChar = s.dropWhile wordChar ++ 10 :: b := by
      intro s
      induction s with
      | nil => exact ⟨by rw [List.nil_append, List.takeWhile_cons_of_neg (by decide)]; rfl, by rw [List.nil_append, List.dropWhile_cons_of_neg (by decide)]; rfl⟩
      | cons d s ih =>
        by_cases hd : wordChar d = true
        · rw [List.cons_append, List.takeWhile_cons_of_pos hd, List.takeWhile_cons_of_pos hd, List.dropWhile_cons_of_pos hd, List.dropWhile_cons_of_pos hd, ih.1, ih.2]
          exact ⟨rfl, rfl⟩
        · rw [List.cons_append, List.takeWhile_cons_of_neg hd, List.takeWhile_cons_of_neg hd, List.dropWhile_cons_of_neg hd, List.dropWhile_cons_of_neg hd]
          exact ⟨rfl, rfl⟩
    rw [← List.cons_append, (ht _).1, (ht _).2]
    by_cases h5 : ((c :: t).dropWhile wordChar).head? = some 39
    · rw [if_pos h5] at h
      cases h
    · rw [if_neg h5] at h
      cases h
      rw [if_neg]
      cases hd : (c :: t).dropWhile wordChar with
      | nil => simp
      | cons x xs =>
        rw [hd] at h5
        simpa using h5
  rw [if_neg h4] at h ⊢
  by_cases h5 : c ∈ symbols
  · rw [if_pos h5] at h ⊢
    cases h
    rfl
  · rw [if_neg h5] at h
    cases h

theorem lex_blank (c : UInt8) (t : Bytes) (h : space c = true) : lex (c :: t) = lex t := by
  unfold lex
  conv => lhs; unfold lexN
  rw [if_pos h]
  exact lexN_fuel t _ _ (by rw [List.length_cons]; omega) (by omega)

/-- the first token of a text that can be read -/
theorem lex_some {c : UInt8} {t : Bytes} {ts : List Tok} (hs : space c = false) (h : lex (c :: t) = some ts) :
    ∃ k r ts', lexOne c t = some (k, r) ∧ r.length ≤ t.length ∧ lex r = some ts' ∧ ts = k :: ts' := by
  cases ho : lexOne c t with
  | none => rw [lex_fail hs ho] at h; cases h
  | some p =>
    obtain ⟨k, r⟩ := p
    by_cases hl : r.length ≤ t.length
    · rw [lex_step hs ho hl] at h
      obtain ⟨ts', h1, h2⟩ := Option.map_eq_some_iff.mp h
      exact ⟨k, r, ts', rfl, hl, h1, h2.symm⟩
    · unfold lex at h
      unfold lexN at h
      rw [if_neg (by rw [hs]; decide), ho] at h
      dsimp only at h
      rw [if_neg hl] at h
      cases h

/-- a line, and what follows it -/
theorem lex_line (a b : Bytes) (ts : List Tok) (h : lex a = some ts) : lex (a ++ 10 :: b) = (lex b).map (ts ++ ·) := by
  induction hn : a.length using Nat.strongRecOn generalizing a ts with
  | _ n ih =>
    cases a with
    | nil =>
      rw [lex_nil] at h
      cases h
      rw [List.nil_append, lex_blank 10 b rfl]
      cases lex b <;> rfl
    | cons c t =>
      rw [List.length_cons] at hn
      cases hs : space c with
      | true =>
        rw [lex_blank c t hs] at h
        rw [List.cons_append, lex_blank c _ hs, ih t.length (by omega) t ts h rfl]
      | false =>
        obtain ⟨k, r, ts', h1, h2, h3, rfl⟩ := lex_some hs h
        rw [List.cons_append, lex_step hs (lexOne_more c t r b k h1) (by rw [List.length_append, List.length_append]; omega),
          ih r.length (by omega) r ts' h3 rfl, Option.map_map]
        rfl

theorem lex_stdout {lines : List Bytes} {tss : List (List Tok)} (h : All2 (fun l ts => lex l = some ts) lines tss) : lex (stdout lines) = some tss.flatten := by
  induction h with
  | nil => rfl
  | @cons l ts ls tss h _ ih =>
    have e : stdout (l :: ls) = l ++ 10 :: stdout ls := by
      unfold stdout
      rw [List.flatMap_cons, List.append_assoc]
      rfl
    rw [e, lex_line l _ ts h, ih]
    rfl

/-- the tokens of one statement -/
def OneStatement (ts : List Tok) : Prop := ∃ body, ts = body ++ [.sym 59] ∧ Tok.sym 59 ∉ body

theorem statements_one (acc body ts : List Tok) (h : Tok.sym 59 ∉ body) :
    statements acc (body ++ .sym 59 :: ts) = (statements [] ts).map ((acc ++ body ++ [.sym 59]) :: ·) := by
  induction body generalizing acc with
  | nil => rw [List.nil_append, statements, if_pos rfl, List.append_nil]
  | cons t body ih =>
    rw [List.mem_cons, not_or] at h
    rw [List.cons_append, statements, if_neg (fun e => h.1 e.symm), ih _ h.2]
    simp

theorem statements_flatten {tss : List (List Tok)} (h : ∀ ts ∈ tss, OneStatement ts) : statements [] tss.flatten = some tss := by
  induction tss with
  | nil => rfl
  | cons ts tss ih =>
    obtain ⟨body, rfl, hb⟩ := h ts List.mem_cons_self
    rw [List.flatten_cons, List.append_assoc]
    show statements [] (body ++ Tok.sym 59 :: tss.flatten) = _
    rw [statements_one [] body _ hb, ih fun x hx => h x (List.mem_cons_of_mem _ hx)]
    rfl

/-! ## REPLACE statements -/

theorem evalLit_semi (g : List Tok) {v : SqlVal} (h : evalExpr g = some v) : Tok.sym 59 ∉ g := by
  intro hm
  unfold evalExpr at h
  split at h
  · rename_i t
    cases List.mem_singleton.mp hm
    cases h
  · rename_i w t
    simp only [List.mem_cons, reduceCtorEq, Tok.sym.injEq, List.not_mem_nil, or_false, false_or] at hm
    rcases hm with hm | hm | hm
    · exact absurd hm (by decide)
    · subst hm
      split at h <;> cases h
    · exact absurd hm (by decide)
  · cases h

theorem commaGroups_mem {t : Tok} {ts : List Tok} (h : t ∈ ts) (ht : t ≠ .sym 44) : ∃ g ∈ commaGroups ts, t ∈ g := by
  induction ts with
  | nil => cases h
  | cons x ts ih =>
    rw [List.mem_cons] at h
    by_cases hx : x = .sym 44
    · subst hx
      obtain ⟨g, h1, h2⟩ := ih (h.resolve_left ht)
      exact ⟨g, by rw [commaGroups]; exact List.mem_cons_of_mem _ h1, h2⟩
    · have e : commaGroups (x :: ts) = match commaGroups ts with
          | [] => [[x]]
          | g :: gs => (x :: g) :: gs := by
        rw [commaGroups]
        · rfl
        · exact hx
      rw [e]
      rcases h with rfl | h
      · cases commaGroups ts with
        | nil => exact ⟨_, List.mem_cons_self, List.mem_cons_self⟩
        | cons g gs => exact ⟨_, List.mem_cons_self, List.mem_cons_self⟩
      · obtain ⟨g, h1, h2⟩ := ih h
        cases hg : commaGroups ts with
        | nil => rw [hg] at h1; cases h1
        | cons g' gs =>
          rw [hg] at h1
          rcases List.mem_cons.mp h1 with rfl | h1
          · exact ⟨_, List.mem_cons_self, List.mem_cons_of_mem _ h2⟩
          · exact ⟨g, List.mem_cons_of_mem _ h1, h2⟩

theorem mapM_mem {α β : Type} (f : α → Option β) {l : List α} {l' : List β} (h : l.mapM f = some l') {x : α} (hx : x ∈ l) : ∃ y, f x = some y := by
  induction l generalizing l' with
  | nil => cases hx
  | cons a l ih =>
    rw [List.mapM_cons] at h
    cases ha : f a with
    | none => rw [ha] at h; cases h
    | some y =>
      cases hl : l.mapM f with
      | none => rw [ha, hl] at h; cases h
      | some ys =>
        rcases List.mem_cons.mp hx with rfl | hx
        · exact ⟨y, ha⟩
        · exact ih hl hx

theorem evalList_semi {ts : List Tok} {vs : List SqlVal} (h : evalList ts = some vs) : Tok.sym 59 ∉ ts := by
  intro hm
  unfold evalList at h
  rw [if_neg (fun e => by rw [e] at hm; cases hm)] at h
  obtain ⟨g, h1, h2⟩ := commaGroups_mem hm (by decide)
  obtain ⟨v, hv⟩ := mapM_mem _ h h1
  exact evalLit_semi g hv h2

theorem parseReplace_one {ts : List Tok} {r : Replace} (h : parseReplace ts = some r) : OneStatement ts := by
  unfold parseReplace at h
  split at h
  · rename_i w1 w2 db table w3 ts
    split at h
    · split at h
      · rename_i mid he
        obtain ⟨vs, h1, -⟩ := Option.map_eq_some_iff.mp h
        have hts : ts = mid.reverse ++ [.sym 41, .sym 59] := by
          have := congrArg List.reverse he
          rw [List.reverse_reverse] at this
          rw [this]
          simp
        refine ⟨.word w1 :: .word w2 :: .ident db :: .sym 46 :: .ident table :: .word w3 :: .sym 40 :: (mid.reverse ++ [.sym 41]), ?_, ?_⟩
        · rw [hts]; simp
        · have := evalList_semi h1
          simp only [List.mem_cons, List.mem_append, List.not_mem_nil, or_false, reduceCtorEq, Tok.sym.injEq, false_or, not_or]
          exact ⟨by decide, by decide, this, by decide⟩
      · cases h
    · cases h
  · cases h

theorem mapM_all2 {α β : Type} (f : α → Option β) {l : List α} {l' : List β} (h : All2 (fun a b => f a = some b) l l') : l.mapM f = some l' := by
  induction h with
  | nil => rfl
  | cons h _ ih => rw [List.mapM_cons, h, ih]; rfl

/-- a script whose lines are REPLACE statements -/
theorem readReplaces_lines {lines : List Bytes} {rs : List Replace} (h : All2 (fun l r => readReplace l = some r) lines rs) :
    readReplaces (stdout lines) = some rs := by
  have : ∃ tss, All2 (fun l ts => lex l = some ts) lines tss ∧ All2 (fun ts r => parseReplace ts = some r) tss rs := by
    induction h with
    | nil => exact ⟨[], .nil, .nil⟩
    | @cons l r ls rs h _ ih =>
      obtain ⟨tss, h1, h2⟩ := ih
      obtain ⟨ts, h3, h4⟩ := Option.bind_eq_some_iff.mp h
      exact ⟨ts :: tss, .cons h3 h1, .cons h4 h2⟩
  obtain ⟨tss, h1, h2⟩ := this
  unfold readReplaces
  rw [lex_stdout h1, Option.bind_some, statements_flatten, Option.bind_some, mapM_all2 _ h2]
  intro ts hts
  clear h h1
  induction h2 with
  | nil => cases hts
  | cons h _ ih =>
    rcases List.mem_cons.mp hts with rfl | hts
    · exact parseReplace_one h
    · exact ih hts

/-! ## UPDATE statements -/

theorem splitTok_mem {sep t : Tok} {ts : List Tok} (h : t ∈ ts) (ht : t ≠ sep) : ∃ g ∈ splitTok sep ts, t ∈ g := by
  induction ts with
  | nil => cases h
  | cons x ts ih =>
    rw [List.mem_cons] at h
    rw [splitTok]
    by_cases hx : x = sep
    · subst hx
      obtain ⟨g, h1, h2⟩ := ih (h.resolve_left ht)
      exact ⟨g, by rw [if_pos rfl]; exact List.mem_cons_of_mem _ h1, h2⟩
    · rw [if_neg hx]
      rcases h with rfl | h
      · cases splitTok sep ts with
        | nil => exact ⟨_, List.mem_cons_self, List.mem_cons_self⟩
        | cons g gs => exact ⟨_, List.mem_cons_self, List.mem_cons_self⟩
      · obtain ⟨g, h1, h2⟩ := ih h
        cases hg : splitTok sep ts with
        | nil => rw [hg] at h1; cases h1
        | cons g' gs =>
          rw [hg] at h1
          rcases List.mem_cons.mp h1 with rfl | h1
          · exact ⟨_, List.mem_cons_self, List.mem_cons_of_mem _ h2⟩
          · exact ⟨g, List.mem_cons_of_mem _ h1, h2⟩

theorem mapM_mem_out {α β : Type} (f : α → Option β) {l : List α} {l' : List β} (h : l.mapM f = some l') {x : α} (hx : x ∈ l) :
    ∃ y ∈ l', f x = some y := by
  induction l generalizing l' with
  | nil => cases hx
  | cons a l ih =>
    rw [List.mapM_cons] at h
    cases ha : f a with
    | none => rw [ha] at h; cases h
    | some y =>
      cases hl : l.mapM f with
      | none => rw [ha, hl] at h; cases h
      | some ys =>
        rw [ha, hl] at h
        cases h
        rcases List.mem_cons.mp hx with rfl | hx
        · exact ⟨y, List.mem_cons_self, ha⟩
        · obtain ⟨z, h1, h2⟩ := ih hl hx
          exact ⟨z, List.mem_cons_of_mem _ h1, h2⟩

theorem parseEq_semi {g : List Tok} {e : Bytes × List Tok} (h : parseEq g = some e) {v : SqlVal} (hv : evalExpr e.2 = some v) : Tok.sym 59 ∉ g := by
  unfold parseEq at h
  split at h
  · rename_i n e'
    split at h
    · cases h
    · cases h
      have := evalLit_semi e' hv
      simp only [List.mem_cons, reduceCtorEq, Tok.sym.injEq, false_or, not_or]
      exact ⟨by decide, this⟩
  · cases h

/-- an UPDATE whose expressions are literals has no semicolon but at its end -/
theorem parseUpdate_one {ts : List Tok} {u : Update} (h : parseUpdate ts = some u) (hv : ∀ e ∈ u.sets ++ u.conds, ∃ v, evalExpr e.2 = some v) :
    OneStatement ts := by
  unfold parseUpdate at h
  split at h
  · rename_i w1 db table w2 ts
    split at h
    · split at h
      · rename_i body he
        have hts : ts = body.reverse ++ [.sym 59] := by
          have := congrArg List.reverse he
          rw [List.reverse_reverse] at this
          rw [this]
          simp
        refine ⟨.word w1 :: .ident db :: .sym 46 :: .ident table :: .word w2 :: body.reverse, by rw [hts]; rfl, ?_⟩
        have hb : Tok.sym 59 ∉ body.reverse := by
          intro hm
          unfold parseParts at h
          split at h
          · rename_i sets conds hsp
            split at h
            · rename_i s c h1 h2
              cases h
              obtain ⟨g, hg, hm⟩ := splitTok_mem (sep := .word (b! "where")) hm (by simp)
              rw [hsp] at hg
              simp only [List.mem_cons, List.not_mem_nil, or_false] at hg
              rcases hg with rfl | rfl
              · obtain ⟨g, hg, hm⟩ := splitTok_mem (sep := .sym 44) hm (by decide)
                obtain ⟨e, he, hp⟩ := mapM_mem_out _ h1 hg
                obtain ⟨v, hv⟩ := hv e (List.mem_append_left _ he)
                exact parseEq_semi hp hv hm
              · obtain ⟨g, hg, hm⟩ := splitTok_mem (sep := .word (b! "and")) hm (by simp)
                obtain ⟨e, he, hp⟩ := mapM_mem_out _ h2 hg
                obtain ⟨v, hv⟩ := hv e (List.mem_append_right _ he)
                exact parseEq_semi hp hv hm
            · cases h
          · cases h
        simp only [List.mem_cons, reduceCtorEq, Tok.sym.injEq, false_or, not_or]
        exact ⟨by decide, hb⟩
      · cases h
    · cases h
  · cases h

/-- a script whose lines are UPDATE statements that assign and compare with literals -/
theorem readUpdates_lines {lines : List Bytes} {us : List Update}
    (h : All2 (fun l u => readUpdate l = some u ∧ ∀ e ∈ u.sets ++ u.conds, ∃ v, evalExpr e.2 = some v) lines us) : readUpdates (stdout lines) = some us := by
  have : ∃ tss, All2 (fun l ts => lex l = some ts) lines tss ∧
      All2 (fun ts u => parseUpdate ts = some u ∧ ∀ e ∈ u.sets ++ u.conds, ∃ v, evalExpr e.2 = some v) tss us := by
    induction h with
    | nil => exact ⟨[], .nil, .nil⟩
    | @cons l r ls rs h _ ih =>
      obtain ⟨tss, h1, h2⟩ := ih
      obtain ⟨ts, h3, h4⟩ := Option.bind_eq_some_iff.mp h.1
      exact ⟨ts :: tss, .cons h3 h1, .cons ⟨h4, h.2⟩ h2⟩
  obtain ⟨tss, h1, h2⟩ := this
  unfold readUpdates
  have h3 : All2 (fun ts u => parseUpdate ts = some u) tss us := by
    clear h h1
    induction h2 with
    | nil => exact .nil
    | cons h _ ih => exact .cons h.1 ih
  rw [lex_stdout h1, Option.bind_some, statements_flatten, Option.bind_some, mapM_all2 _ h3]
  intro ts hts
  clear h h1 h3
  induction h2 with
  | nil => cases hts
  | cons h _ ih =>
    rcases List.mem_cons.mp hts with rfl | hts
    · exact parseUpdate_one h.1 h.2
    · exact ih hts

end Verif.Spec
