import Verif.Proofs.RedoNear
/-!
# C64: how far the redo parser gets, whatever the log contains
-/

namespace Verif.Props
open Verif Spec

/-- **C64**, as stated: the parsing of a redo stream ends, normally, with an error or with a panic, only in the last 16 bytes of the
stream or behind it. -/
def C64_statement : Prop :=
  ∀ (cfg : RCfg) (s : Stream) (out : Out), s.data.length < (redoLoop cfg s (s.data.length + 1) ⟨0, out⟩).st.pos + 17

/-- At `p` there is a compact insert record, and its index description, at `q`, announces more fields than the stream can hold. -/
def IndexTooLong (d : Bytes) (q : Nat) : Prop :=
  d.length < q + 4 + 2 * numAt d q 2 ∧ ∃ p b, d[p]? = some b ∧ typeOf b = 38 ∧ p + 3 ≤ q ∧ q ≤ p + 11

theorem insertRecord_error {b : Bool} {d : Bytes} {p q : Nat} {e : Bytes} {o o' : Out}
    (h : parseInsertRecord b d p o = .ok (q, some e) o') : d.length < p + 7 := by
  have key : ∀ r, r ≤ p + 2 → (do
      let pc ← GoM.lift (matchParseCompressed d r)
      match pc.err with
      | some e => return (0, some e)
      | none =>
        if r + pc.num > d.length then return (0, some errInsertTooShort)
        else
          let pos ← insertExtra d (r + pc.num) pc.val
          return (pos + pc.val >>> 1, none) : GoM Out (Nat × Option Bytes)) o = .ok (q, some e) o' → d.length < p + 7 := by
    intro r hr h
    cases em : matchParseCompressed d r with
    | none => rw [em] at h; cases h
    | some pc =>
      rw [em, GoM.lift_some_bind] at h
      have hn := mpc_num em
      rcases mpc_err em with he | ⟨_, he⟩
      · have := hn.2.2.2.1 he
        rw [he] at h
        dsimp only at h
        rw [if_neg (by omega)] at h
        obtain ⟨_, _, _, h2⟩ := GoM.bind_eq_ok h
        cases h2
      · omega
  unfold parseInsertRecord insertOffset at h
  cases b with
  | true => exact key p (by omega) h
  | false =>
    cases e2 : read2 d p with
    | none => rw [e2] at h; cases h
    | some v => rw [e2] at h; exact key (p + 2) (by omega) h

theorem recInsert_error {d : Bytes} {t : Nat} {st u : RS} {e : Bytes} (h : mlogRecInsert d t st = .ok (some e) u) :
    d.length < u.pos + 7 ∨ (t = 38 ∧ u.pos = st.pos ∧ d.length < u.pos + 4 + 2 * numAt d u.pos 2) := by
  unfold mlogRecInsert at h
  obtain ⟨a, v, h1, h2⟩ := GoM.bind_eq_ok h
  cases a with
  | some e1 =>
    cases h2
    unfold parseIndexHere at h1
    rw [here_bind_some (parseIndex_eq _ d st.pos)] at h1
    by_cases hc : t = 38
    · subst hc
      rw [if_pos (by decide)] at h1
      by_cases hl : d.length < st.pos + 4 ∨ d.length < st.pos + 4 + numAt d st.pos 2 * 2
      · rw [if_pos hl] at h1
        cases h1
        rcases hl with hl | hl
        · left; omega
        · right; refine ⟨rfl, rfl, by omega⟩
      · rw [if_neg hl] at h1; cases h1
    · rw [if_neg (by rw [decide_eq_true_eq]; exact hc)] at h1
      cases h1
  | none =>
    left
    dsimp only at h2
    unfold parseInsertHere at h2
    rw [getPos_bind, GoM.bind_run] at h2
    unfold outM at h2
    rw [GoM.zoom_run] at h2
    cases e2 : parseInsertRecord false d v.pos v.out with
    | panic o => rw [e2] at h2; cases h2
    | hang o => rw [e2] at h2; cases h2
    | ok r o =>
      rw [e2] at h2
      obtain ⟨q, x⟩ := r
      cases x with
      | none => cases h2
      | some x => cases h2; exact insertRecord_error e2

/-- never returns from the main loop -/
def NoRet (m : RM Ctl) : Prop := ∀ s e u, m s ≠ .ok (.ret e) u

theorem noRet_ign (m : RM (Option Bytes)) : NoRet (ign m) := by
  intro s e u h
  obtain ⟨_, _, _, h2⟩ := GoM.bind_eq_ok h
  cases h2

theorem noRet_unit (m : RM Unit) : NoRet (unit m) := by
  intro s e u h
  obtain ⟨_, _, _, h2⟩ := GoM.bind_eq_ok h
  cases h2

theorem noRet_next : NoRet (pure .next) := fun _ _ _ h => by cases h

theorem noRet_ite {c : Prop} [Decidable c] {m n : RM Ctl} (hm : NoRet m) (hn : NoRet n) : NoRet (if c then m else n) := by
  split
  · exact hm
  · exact hn

theorem dispatch_ret {cfg : RCfg} {s : Stream} {t : Nat} {st u : RS} {e : Option Bytes} (h : dispatch cfg s t st = .ok (.ret e) u) :
    ∃ x, e = some x ∧ mlogRecInsert s.data t st = .ok (some x) u := by
  by_cases hi : t = 9 ∨ t = 38
  · have hd : dispatch cfg s t = (do
        match ← mlogRecInsert s.data t with
        | some e => return .ret (some e)
        | none => return .next) := by
      rcases hi with rfl | rfl <;> rfl
    rw [hd] at h
    obtain ⟨a, v, h1, h2⟩ := GoM.bind_eq_ok h
    cases a with
    | none => cases h2
    | some x => cases h2; exact ⟨x, rfl, h1⟩
  · exfalso
    have hi' : ¬ (t = MLOG_REC_INSERT ∨ t = MLOG_COMP_REC_INSERT) := hi
    revert h
    have : NoRet (dispatch cfg s t) := by
      unfold dispatch
      dsimp only
      rw [if_neg hi']
      repeat' with_reducible first
        | exact noRet_ign _
        | exact noRet_unit _
        | exact noRet_next
        | refine noRet_ite ?_ ?_
    exact this st e u

theorem redoStep_ret {cfg : RCfg} {s : Stream} {st u : RS} {e : Option Bytes} (h : redoStep cfg s st = .ok (.ret e) u) :
    (∃ x, e = some x) ∧ (s.data.length < u.pos + 7 ∨ IndexTooLong s.data u.pos) := by
  unfold redoStep at h
  cases e1 : read1 s.data st.pos with
  | none => rw [here_bind_none e1] at h; cases h
  | some raw =>
    rw [here_bind_some e1, addPos_bind, getPos_bind] at h
    split at h
    · cases h
    · dsimp only at h
      split at h
      · cases e2 : matchParseCompressed s.data (st.pos + 1) with
        | none => rw [here_bind_none (s := ⟨st.pos + 1, st.out⟩) e2] at h; cases h
        | some sp =>
          rw [here_bind_some (s := ⟨st.pos + 1, st.out⟩) e2, addPos_bind] at h
          have n2 := mpc_num e2
          rcases mpc_err e2 with he | ⟨he, hl⟩
          · rw [he] at h
            dsimp only at h
            cases e3 : matchParseCompressed s.data (st.pos + 1 + sp.num) with
            | none => rw [here_bind_none (s := ⟨st.pos + 1 + sp.num, st.out⟩) e3] at h; cases h
            | some pg =>
              rw [here_bind_some (s := ⟨st.pos + 1 + sp.num, st.out⟩) e3, addPos_bind] at h
              have n3 := mpc_num e3
              rcases mpc_err e3 with he3 | ⟨he3, hl⟩
              · rw [he3] at h
                dsimp only at h
                split at h
                · cases h
                · obtain ⟨x, he, hx⟩ := dispatch_ret h
                  refine ⟨⟨x, he⟩, ?_⟩
                  rcases recInsert_error hx with h7 | ⟨ht, hu, hl⟩
                  · exact Or.inl h7
                  · right
                    refine ⟨hl, st.pos, ?_⟩
                    have hlt : st.pos < s.data.length := by omega
                    refine ⟨s.data[st.pos], List.getElem?_eq_getElem hlt, ?_, ?_, ?_⟩
                    · rw [read1_getElem (List.getElem?_eq_getElem hlt)] at e1
                      cases e1
                      rw [typeOf_eq] at ht
                      exact ht
                    · rw [hu]; show st.pos + 3 ≤ st.pos + 1 + sp.num + pg.num; omega
                    · rw [hu]; show st.pos + 1 + sp.num + pg.num ≤ st.pos + 11; omega
              · rw [he3] at h
                cases h
                refine ⟨⟨_, rfl⟩, Or.inl ?_⟩
                show s.data.length < st.pos + 1 + sp.num + pg.num + 7
                omega
          · rw [he] at h
            cases h
            refine ⟨⟨_, rfl⟩, Or.inl ?_⟩
            show s.data.length < st.pos + 1 + sp.num + 7
            omega
      · next ht =>
        have ht' : andNot64 raw MLOG_SINGLE_REC_FLAG = 56 := by
          by_cases hc : andNot64 raw MLOG_SINGLE_REC_FLAG = 56
          · exact hc
          · exact absurd hc ht
        rw [ht'] at h
        cases h

/-- How far the parsing gets, by the way it ends. -/
def ReachedEnd (d : Bytes) : R RS (Option Bytes) → Prop
  | .ok none u => d.length < u.pos + 5
  | .ok (some _) u => d.length < u.pos + 7 ∨ IndexTooLong d u.pos
  | .panic u => d.length < u.pos + 17
  | .hang _ => False

theorem redoLoop_reached (cfg : RCfg) (s : Stream) (fuel : Nat) (st : RS) (hh : ∀ t, redoLoop cfg s fuel st ≠ .hang t) :
    ReachedEnd s.data (redoLoop cfg s fuel st) := by
  induction fuel generalizing st with
  | zero => exact absurd rfl (hh st)
  | succ n ih =>
    unfold redoLoop at hh ⊢
    rw [getPos_bind] at hh ⊢
    by_cases h5 : s.data.length < st.pos + 5
    · rw [if_pos h5]; exact h5
    · rw [if_neg h5] at hh ⊢
      cases e : redoStep cfg s st with
      | panic u => rw [GoM.bind_panic e]; exact redoStep_near cfg s st u e
      | hang u => exact absurd (GoM.bind_hang e) (hh u)
      | ok c u =>
        rw [GoM.bind_ok e] at hh ⊢
        cases c with
        | next => exact ih u hh
        | ret x =>
          obtain ⟨⟨y, rfl⟩, hr⟩ := redoStep_ret e
          exact hr

/-- **C64, exactly:** for all streams, the parsing comes to an end in the last 16 bytes of the stream or behind it, except at a compact
insert record whose index description does not fit into the stream, where it returns an error. -/
theorem C64_reach_partial (cfg : RCfg) (s : Stream) (out : Out) : ReachedEnd s.data (redoLoop cfg s (s.data.length + 1) ⟨0, out⟩) :=
  redoLoop_reached cfg s _ _ fun t => redoLoop_terminates cfg s _ _ t (by omega) (by show s.data.length + 1 ≤ s.data.length + 1 + 0; omega)

/-- **C64, aborts:** a panic comes in the last 16 bytes or behind them. -/
theorem C64_abort (cfg : RCfg) (s : Stream) (out : Out) (u : RS) (h : redoLoop cfg s (s.data.length + 1) ⟨0, out⟩ = .panic u) :
    s.data.length < u.pos + 17 := by
  have := C64_reach_partial cfg s out
  rw [h] at this
  exact this

/-- A log without compact insert records whose index description is too long is read to the last 16 bytes. -/
theorem C64_no_long_index_partial (cfg : RCfg) (s : Stream) (out : Out) (h : ∀ q, ¬ IndexTooLong s.data q) :
    s.data.length < (redoLoop cfg s (s.data.length + 1) ⟨0, out⟩).st.pos + 17 := by
  have hr := C64_reach_partial cfg s out
  cases e : redoLoop cfg s (s.data.length + 1) ⟨0, out⟩ with
  | panic u => rw [e] at hr; exact hr
  | hang u => rw [e] at hr; exact hr.elim
  | ok x u =>
    rw [e] at hr
    cases x with
    | none => have : s.data.length < u.pos + 5 := hr; show s.data.length < u.pos + 17; omega
    | some x =>
      rcases hr with hr | hr
      · show s.data.length < u.pos + 17; omega
      · exact absurd hr (h _)

/-- The bound is attained: an insert record of which the last number is cut aborts the program 16 bytes before the end. -/
theorem C64_tight : redoLoop ⟨someEnv, [], [], []⟩ ⟨[9, 0, 0] ++ ([0, 0] ++ ([0xF0, 0, 0, 0, 1] ++ ([0] ++ ([0xF0, 0, 0, 0, 0] ++ [0xE0, 0, 0])))), 0⟩ 20 ⟨0, []⟩ =
    .panic ⟨3, []⟩ := by decide

/-- A compact insert record with 65535 index fields; 21 bytes follow its header. -/
def longIndex : Bytes := [38, 0, 0, 0xFF, 0xFF] ++ List.replicate 19 0

/-- **C64 is false** because of such records: the rest of the log is not looked at. -/
theorem C64_false : ¬ C64_statement := by
  intro h
  have := h ⟨someEnv, [], [], []⟩ ⟨longIndex, 0⟩ []
  revert this
  decide

/-- The hypothesis of `C64_no_long_index_partial` holds for a log without compact inserts. -/
example : ∀ q, ¬ IndexTooLong [9, 0, 0, 0, 0, 31, 31, 31] q := by
  rintro q ⟨_, p, b, hp, hb, _, _⟩
  have hlt : p < 8 := by
    by_cases h : p < 8
    · exact h
    · rw [List.getElem?_eq_none (by show 8 ≤ p; omega)] at hp; cases hp
  have key : ∀ p < 8, ∀ b, ([9, 0, 0, 0, 0, 31, 31, 31] : Bytes)[p]? = some b → typeOf b ≠ 38 := by
    intro p hp b hb
    have : b ∈ ([9, 0, 0, 0, 0, 31, 31, 31] : Bytes) := List.mem_of_getElem? hb
    simp only [List.mem_cons, List.not_mem_nil, or_false] at this
    rcases this with rfl | rfl | rfl | rfl | rfl | rfl | rfl | rfl <;> decide
  exact key p hlt b hp hb

end Verif.Props
