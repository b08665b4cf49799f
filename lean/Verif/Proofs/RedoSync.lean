import Verif.Proofs.Redo
import Verif.Proofs.Redundant
import Verif.Spec.RedoRecords
/-!
# Lemmas: how the redo parser consumes the bytes of a record
-/

namespace Verif
open Spec

variable {α β : Type} {la : Nat}

/-- Started before the bytes `e`, with at least `la` bytes behind them, the code behaves like `g` and leaves the cursor behind
`e` unless it panics. -/
def Eats (la : Nat) (d : Bytes) (m : RM α) (e : Bytes) (g : GoM Out α) : Prop :=
  ∀ pre suf, d = pre ++ e ++ suf → la ≤ suf.length → ∀ out, match g out with
    | .ok a out' => m ⟨pre.length, out⟩ = .ok a ⟨pre.length + e.length, out'⟩
    | .panic out' => ∃ p, m ⟨pre.length, out⟩ = .panic ⟨p, out'⟩
    | .hang out' => ∃ p, m ⟨pre.length, out⟩ = .hang ⟨p, out'⟩

namespace Eats
variable {d e e' : Bytes}

theorem pure (a : α) : Eats la d (Pure.pure a) [] (Pure.pure a) := fun _ _ _ _ _ => rfl

theorem bind {m : RM α} {g : GoM Out α} {f : α → RM β} {h : α → GoM Out β} (hm : Eats la d m e g) (hf : ∀ a, Eats la d (f a) e' (h a)) :
    Eats la d (m >>= f) (e ++ e') (g >>= h) := by
  intro pre suf hd hs out
  have h1 := hm pre (e' ++ suf) (by rw [hd]; simp only [List.append_assoc]) (by rw [List.length_append]; omega) out
  rw [GoM.bind_run]
  cases hg : g out with
  | ok a out' =>
    rw [hg] at h1
    have h2 := hf a (pre ++ e) suf (by rw [hd]; simp only [List.append_assoc]) hs out'
    rw [List.length_append] at h2
    dsimp only at h1 ⊢
    rw [GoM.bind_run, h1]
    dsimp only
    cases hh : h a out' with
    | ok b o => rw [hh] at h2; dsimp only at h2 ⊢; rw [h2, List.length_append, Nat.add_assoc]
    | panic o => rw [hh] at h2; exact h2
    | hang o => rw [hh] at h2; exact h2
  | panic out' =>
    rw [hg] at h1
    obtain ⟨p, hp⟩ := h1
    exact ⟨p, GoM.bind_panic hp⟩
  | hang out' =>
    rw [hg] at h1
    obtain ⟨p, hp⟩ := h1
    refine ⟨p, ?_⟩
    rw [GoM.bind_run, hp]

/-- a part that cannot fail -/
theorem seq {m : RM α} {a : α} {f : α → RM β} {h : GoM Out β} (hm : Eats la d m e (Pure.pure a)) (hf : Eats la d (f a) e' h) :
    Eats la d (m >>= f) (e ++ e') h := by
  intro pre suf hd hs out
  have h1 := hm pre (e' ++ suf) (by rw [hd]; simp only [List.append_assoc]) (by rw [List.length_append]; omega) out
  have h2 := hf (pre ++ e) suf (by rw [hd]; simp only [List.append_assoc]) hs out
  have h1' : m ⟨pre.length, out⟩ = .ok a ⟨pre.length + e.length, out⟩ := h1
  rw [List.length_append] at h2
  rw [GoM.bind_ok h1', List.length_append, ← Nat.add_assoc]
  exact h2

theorem congr {m : RM α} {g : GoM Out α} (h : Eats la d m e g) (he : e = e') : Eats la d m e' g := he ▸ h

/-- reading a number of `w` bytes and skipping it -/
theorem rd {f : Bytes → Nat → Option Nat} {w : Nat} (hf : ∀ d p, f d p = readW w d p) {k : Nat → RM β} {g : GoM Out β} (he : e.length = w)
    (hk : Eats la d (k (beVal e)) e' g) : Eats la d (here f d >>= fun v => addPos w >>= fun _ => k v) (e ++ e') g := by
  intro pre suf hd hs out
  have h2 := hk (pre ++ e) suf (by rw [hd]; simp only [List.append_assoc]) hs out
  have hr : f d pre.length = some (beVal e) := by
    rw [hf, ← he, hd, List.append_assoc, List.append_assoc, ← List.append_assoc]
    exact readW_append pre e _
  rw [here_bind_some (s := ⟨pre.length, out⟩) hr, addPos_bind]
  rw [List.length_append] at h2
  rw [List.length_append, ← Nat.add_assoc, ← he]
  exact h2

/-- the same at the end of a block -/
theorem rd' {f : Bytes → Nat → Option Nat} {w : Nat} (hf : ∀ d p, f d p = readW w d p) (he : e.length = w) :
    Eats la d (here f d >>= fun _ => addPos w) e (Pure.pure ()) := by
  intro pre suf hd hs out
  have hr : f d pre.length = some (beVal e) := by rw [hf, ← he, hd]; exact readW_append pre e _
  show _ = _
  rw [here_bind_some (s := ⟨pre.length, out⟩) hr, addPos_run, ← he]

/-- skipping bytes -/
theorem skip {k : RM β} {g : GoM Out β} {n : Nat} (he : e.length = n) (hk : Eats la d k e' g) :
    Eats la d (addPos n >>= fun _ => k) (e ++ e') g := by
  intro pre suf hd hs out
  have h2 := hk (pre ++ e) suf (by rw [hd]; simp only [List.append_assoc]) hs out
  rw [addPos_bind]
  rw [List.length_append] at h2
  rw [List.length_append, ← Nat.add_assoc, ← he]
  exact h2

theorem skip' {n : Nat} (he : e.length = n) : Eats la d (addPos n) e (Pure.pure ()) := by
  intro pre suf hd hs out
  show _ = _
  rw [addPos_run, ← he]

/-- reading a compressed number; the number of bytes skipped is left to the continuation -/
theorem mpc {n : Nat} (hn : n < 2 ^ 32) {k : PC → RM β} {g : GoM Out β} (hk : Eats la d (k ⟨n, (compEnc n).length, none⟩) (compEnc n ++ e') g) :
    Eats la d (here matchParseCompressed d >>= k) (compEnc n ++ e') g := by
  intro pre suf hd hs out
  have hr : matchParseCompressed d pre.length = some ⟨n, (compEnc n).length, none⟩ := by
    rw [hd, List.append_assoc, List.append_assoc, ← List.append_assoc]
    exact mpc_compEnc pre _ hn
  rw [here_bind_some (s := ⟨pre.length, out⟩) hr]
  exact hk pre suf hd hs out

end Eats

theorem matchGetCompressedSize_eq (n : Nat) : matchGetCompressedSize n = (compEnc n).length := by
  rw [compEnc_length]
  unfold matchGetCompressedSize
  rfl

theorem compEnc_length_le (n : Nat) : (compEnc n).length ≤ 5 := by
  rw [compEnc_length]
  repeat' split
  all_goals omega

theorem ull_run {d pre suf : Bytes} {n : Nat} (hn : n < 2 ^ 64) (hd : d = pre ++ ullCompEnc n ++ suf)
    (hs : (compEnc (n / 2 ^ 32)).length ≤ suf.length) (out : Out) :
    ∃ v, ullReadCompressed d ⟨pre.length, out⟩ = .ok v ⟨pre.length + (ullCompEnc n).length, out⟩ := by
  have hh : n / 2 ^ 32 < 2 ^ 32 := by omega
  have hr : matchParseCompressed d pre.length = some ⟨n / 2 ^ 32, (compEnc (n / 2 ^ 32)).length, none⟩ := by
    rw [hd, ullCompEnc, List.append_assoc, List.append_assoc, ← List.append_assoc]
    exact mpc_compEnc pre _ hh
  have hl : d.length = pre.length + ((compEnc (n / 2 ^ 32)).length + 4) + suf.length := by
    rw [hd, ullCompEnc]
    simp only [List.length_append, beEnc_length]
  have h5 := compEnc_length_le (n / 2 ^ 32)
  have hsz := matchGetCompressedSize_eq (n / 2 ^ 32)
  unfold ullReadCompressed
  rw [GoM.zoom_run]
  unfold matchUllReadComPressed
  dsimp only
  rw [hr]
  dsimp only
  have h1 : sliceFrom d (pre.length + (compEnc (n / 2 ^ 32)).length) = some (d.drop (pre.length + (compEnc (n / 2 ^ 32)).length)) := by
    rw [sliceFrom, if_pos (by omega)]
  have h2 : sliceFrom (d.drop (pre.length + (compEnc (n / 2 ^ 32)).length)) (matchGetCompressedSize (n / 2 ^ 32)) =
      some ((d.drop (pre.length + (compEnc (n / 2 ^ 32)).length)).drop (compEnc (n / 2 ^ 32)).length) := by
    rw [sliceFrom, hsz, if_pos (by rw [List.length_drop]; omega)]
  rw [h1]
  dsimp only [Option.bind_eq_bind, Option.bind]
  rw [h2]
  dsimp only [Option.bind]
  rw [matchReadFrom4_eq, if_pos (by rw [List.length_drop, List.length_drop]; omega)]
  dsimp only
  rw [ullCompEnc, List.length_append, beEnc_length, Nat.add_assoc]
  exact ⟨_, rfl⟩

/-- the 64-bit number of `mach_u64_write_compressed`: the value read depends on the bytes behind it, but the right number of
bytes is skipped -/
theorem Eats.ull {d e' : Bytes} {n : Nat} (hn : n < 2 ^ 64) {k : Nat → RM β} {g : GoM Out β}
    (hla : (compEnc (n / 2 ^ 32)).length ≤ e'.length + la) (hk : ∀ v, Eats la d (k v) e' g) : Eats la d (ullReadCompressed d >>= k) (ullCompEnc n ++ e') g := by
  intro pre suf hd hs out
  obtain ⟨v, hv⟩ := ull_run (d := d) (suf := e' ++ suf) (pre := pre) hn (by rw [hd]; simp only [List.append_assoc]) (by rw [List.length_append]; omega) out
  have h2 := hk v (pre ++ ullCompEnc n) suf (by rw [hd]; simp only [List.append_assoc]) hs out
  rw [GoM.bind_ok hv, List.length_append, ← Nat.add_assoc]
  rw [List.length_append] at h2
  exact h2

/-! ## Index descriptions and inserted records -/

theorem parseIndexLoop_some (d : Bytes) (n p : Nat) (h : p + 2 * n ≤ d.length) : parseIndexLoop d n p = some (p + 2 * n) := by
  induction n generalizing p with
  | zero => rfl
  | succ n ih =>
    unfold parseIndexLoop
    rw [read2_eq, readW, if_pos (by omega)]
    show parseIndexLoop d n (p + 2) = _
    rw [ih (p + 2) (by omega)]
    congr 1
    omega

theorem flatMap_beEnc_length (w : Nat) (l : List Nat) : (l.flatMap (beEnc w)).length = w * l.length := by
  induction l with
  | nil => rfl
  | cons x l ih => rw [List.flatMap_cons, List.length_append, ih, beEnc_length, List.length_cons, Nat.mul_add]; omega

theorem IndexInfo.enc_length (i : IndexInfo) : i.enc.length = 4 + 2 * i.lens.length := by
  unfold IndexInfo.enc
  simp only [List.length_append, beEnc_length, flatMap_beEnc_length]
  omega

theorem parseIndex_enc {d pre suf : Bytes} (i : IndexInfo) (hi : i.Fits) (hd : d = pre ++ i.enc ++ suf) :
    parseIndex true d pre.length = some (pre.length + i.enc.length, none) := by
  have hl : d.length = pre.length + (4 + 2 * i.lens.length) + suf.length := by
    rw [hd, List.length_append, List.length_append, IndexInfo.enc_length]
  have h1 : read2 d pre.length = some i.lens.length := by
    rw [read2_eq, hd, IndexInfo.enc, List.append_assoc, List.append_assoc, ← List.append_assoc]
    exact readW_beEnc pre _ hi
  unfold parseIndex
  rw [if_pos rfl, if_neg (by omega), h1]
  dsimp only [Option.bind_eq_bind, Option.bind]
  rw [read2_eq, readW, if_pos (by omega)]
  dsimp only [Option.bind]
  rw [if_neg (by omega), parseIndexLoop_some d _ _ (by omega)]
  dsimp only [Option.bind]
  rw [IndexInfo.enc_length, ← Nat.add_assoc]
  rfl

theorem Eats.index {d : Bytes} (ix : Option IndexInfo) (hi : ixFits ix) (b : Bool) (hb : b = ix.isSome) :
    Eats la d (parseIndexHere b d) (ixEnc ix) (Pure.pure none) := by
  intro pre suf hd hs out
  show _ = _
  unfold parseIndexHere
  cases ix with
  | none =>
    subst hb
    rw [here_bind_some (a := (pre.length, none)) (s := ⟨pre.length, out⟩) rfl]
    rfl
  | some i =>
    have : b = true := hb
    subst this
    rw [here_bind_some (s := ⟨pre.length, out⟩) (parseIndex_enc i hi hd)]
    rfl

theorem and_one (n : Nat) : n &&& 1 = n % 2 := Nat.and_one_is_mod n

theorem parseInsertRecord_enc {d pre suf : Bytes} (isShort : Bool) (off : Nat) (i : Insert) (hi : i.Fits)
    (hd : d = pre ++ ((if isShort then [] else beEnc 2 off) ++ i.enc) ++ suf) (out : Out) :
    parseInsertRecord isShort d pre.length out = .ok (pre.length + ((if isShort then [] else beEnc 2 off) ++ i.enc).length, none) out := by
  unfold parseInsertRecord
  have h1 : insertOffset isShort d pre.length out = .ok ((pre ++ if isShort then [] else beEnc 2 off).length) out := by
    unfold insertOffset
    cases isShort with
    | true => simp only [if_true, List.append_nil]; rfl
    | false =>
      have hr : read2 d pre.length = some (beVal (beEnc 2 off)) := by
        rw [read2_eq, hd]
        simp only [Bool.false_eq_true, if_false]
        rw [List.append_assoc, List.append_assoc, ← List.append_assoc]
        have := readW_append pre (beEnc 2 off) (i.enc ++ suf)
        rwa [beEnc_length] at this
      simp only [Bool.false_eq_true, if_false]
      rw [hr, GoM.bind_ok (GoM.lift_some _ _), List.length_append, beEnc_length]
      rfl
  rw [GoM.bind_ok h1]
  have hd' : d = (pre ++ if isShort then [] else beEnc 2 off) ++ i.enc ++ suf := by rw [hd]; simp only [List.append_assoc]
  have hq : pre.length + ((if isShort then [] else beEnc 2 off) ++ i.enc).length = (pre ++ if isShort then [] else beEnc 2 off).length + i.enc.length := by
    simp only [List.length_append, Nat.add_assoc]
  rw [hq]
  clear hq
  generalize (pre ++ if isShort then [] else beEnc 2 off) = q at hd'
  clear h1 hd
  obtain ⟨hi1, hi2⟩ := hi
  unfold Insert.enc at hd' ⊢
  cases he : i.extra with
  | none =>
    rw [he] at hd'
    dsimp only at hd' ⊢
    have h2 : matchParseCompressed d q.length = some ⟨2 * i.data.length, (compEnc (2 * i.data.length)).length, none⟩ := by
      rw [hd', List.append_assoc, List.append_assoc, ← List.append_assoc]
      exact mpc_compEnc q _ (by omega)
    have hl : d.length = q.length + ((compEnc (2 * i.data.length)).length + i.data.length) + suf.length := by
      rw [hd']; simp only [List.length_append]
    rw [h2, GoM.bind_ok (GoM.lift_some _ _)]
    dsimp only
    rw [if_neg (by omega)]
    have h3 : ∀ p, insertExtra d p (2 * i.data.length) out = .ok p out := by
      intro p
      unfold insertExtra
      rw [if_neg (by rw [and_one]; omega)]
      rfl
    rw [GoM.bind_ok (h3 _)]
    show R.ok (_, none) out = _
    rw [List.length_append, Nat.shiftRight_eq_div_pow]
    congr 2
    omega
  | some x =>
    obtain ⟨info, origin, mismatch⟩ := x
    obtain ⟨ho, hm⟩ := hi2 _ he
    rw [he] at hd'
    dsimp only at hd' ho hm ⊢
    have h2 : matchParseCompressed d q.length = some ⟨2 * i.data.length + 1, (compEnc (2 * i.data.length + 1)).length, none⟩ := by
      rw [hd', List.append_assoc, List.append_assoc, ← List.append_assoc]
      exact mpc_compEnc q _ (by omega)
    have hl : d.length = q.length + ((compEnc (2 * i.data.length + 1)).length + (1 + ((compEnc origin).length + ((compEnc mismatch).length +
        i.data.length)))) + suf.length := by
      rw [hd']; simp only [List.length_append, beEnc_length]
    rw [h2, GoM.bind_ok (GoM.lift_some _ _)]
    dsimp only
    rw [if_neg (by omega)]
    have h3 : insertExtra d (q.length + (compEnc (2 * i.data.length + 1)).length) (2 * i.data.length + 1) out =
        .ok (q.length + (compEnc (2 * i.data.length + 1)).length + 1 + (compEnc origin).length + (compEnc mismatch).length) out := by
      unfold insertExtra
      rw [if_pos (by rw [and_one]; omega)]
      have e1 : ∃ v, read1 d (q.length + (compEnc (2 * i.data.length + 1)).length) = some v := by
        rw [read1_eq, readW, if_pos (by omega)]
        exact ⟨_, rfl⟩
      obtain ⟨v, hv⟩ := e1
      have e2 : matchParseCompressed d (q.length + (compEnc (2 * i.data.length + 1)).length + 1) = some ⟨origin, (compEnc origin).length, none⟩ := by
        have := mpc_compEnc (q ++ compEnc (2 * i.data.length + 1) ++ beEnc 1 info) (compEnc mismatch ++ (i.data ++ suf)) ho
        rw [hd']
        simp only [List.length_append, beEnc_length, List.append_assoc] at this ⊢
        exact this
      have e3 : matchParseCompressed d (q.length + (compEnc (2 * i.data.length + 1)).length + 1 + (compEnc origin).length) =
          some ⟨mismatch, (compEnc mismatch).length, none⟩ := by
        have := mpc_compEnc (q ++ compEnc (2 * i.data.length + 1) ++ beEnc 1 info ++ compEnc origin) (i.data ++ suf) hm
        rw [hd']
        simp only [List.length_append, beEnc_length, List.append_assoc] at this ⊢
        simp only [Nat.add_assoc] at this ⊢
        exact this
      rw [hv, GoM.bind_ok (GoM.lift_some _ _), e2, GoM.bind_ok (GoM.lift_some _ _)]
      show (GoM.lift (matchParseCompressed d _) >>= _) out = _
      rw [e3, GoM.bind_ok (GoM.lift_some _ _)]
      rfl
    rw [GoM.bind_ok h3]
    show R.ok (_, none) out = _
    simp only [List.length_append, beEnc_length]
    rw [Nat.shiftRight_eq_div_pow]
    congr 2
    omega

theorem Eats.insert {d : Bytes} (isShort : Bool) (off : Nat) (i : Insert) (hi : i.Fits) :
    Eats la d (parseInsertHere isShort d) ((if isShort then [] else beEnc 2 off) ++ i.enc) (Pure.pure none) := by
  intro pre suf hd hs out
  show _ = _
  unfold parseInsertHere
  rw [getPos_bind]
  have h : outM (parseInsertRecord isShort d pre.length) ⟨pre.length, out⟩ =
      .ok (pre.length + ((if isShort then [] else beEnc 2 off) ++ i.enc).length, none) ⟨pre.length, out⟩ := by
    unfold outM
    rw [GoM.zoom_run, parseInsertRecord_enc isShort off i hi hd]
  rw [GoM.bind_ok h]
  rfl

/-! ## Handlers -/

section
variable {d : Bytes}

theorem Eats.nbytes {ty : Nat} (h : ty ≠ 8) (off : Nat) {val : Nat} (hv : val < 2 ^ 32) :
    Eats la d (mlogNBytes d ty) (beEnc 2 off ++ compEnc val) (Pure.pure none) := by
  unfold mlogNBytes
  refine Eats.rd read2_eq (beEnc_length 2 off) ?_
  rw [if_neg (show ¬ ty = MLOG_8BYTES from h)]
  refine Eats.congr (Eats.mpc (e' := []) hv ?_) (List.append_nil _)
  exact Eats.skip rfl (Eats.pure _)

theorem Eats.nbytes8 (off : Nat) {val : Nat} (hv : val < 2 ^ 64) :
    Eats la d (mlogNBytes d 8) (beEnc 2 off ++ ullCompEnc val) (Pure.pure none) := by
  unfold mlogNBytes
  refine Eats.rd read2_eq (beEnc_length 2 off) ?_
  rw [if_pos (show 8 = MLOG_8BYTES from rfl)]
  refine Eats.mpc (by omega) ?_
  refine Eats.skip (e := compEnc (val / 2 ^ 32)) (matchGetCompressedSize_eq _).symm ?_
  exact Eats.congr (Eats.skip (e := beEnc 4 (val % 2 ^ 32)) (beEnc_length 4 _) (Eats.pure _)) (List.append_nil _)

theorem Eats.secDel (val off : Nat) : Eats la d (mlogRecSecDeleteMark d) (beEnc 1 val ++ beEnc 2 off) (Pure.pure ()) := by
  unfold mlogRecSecDeleteMark
  exact Eats.rd read1_eq (beEnc_length 1 _) (Eats.rd' read2_eq (beEnc_length 2 _))

theorem Eats.undoInit {n : Nat} (h : n < 2 ^ 32) : Eats la d (mlogUndoInit d) (compEnc n) (Pure.pure none) := by
  unfold mlogUndoInit
  refine Eats.congr (Eats.mpc (e' := []) h ?_) (List.append_nil _)
  exact Eats.skip rfl (Eats.pure _)

theorem Eats.hdrReuse {n : Nat} (h : n < 2 ^ 64) (hla : (compEnc (n / 2 ^ 32)).length ≤ la) : Eats la d (mlogUndoHdrReuse d) (ullCompEnc n) (Pure.pure ()) := by
  unfold mlogUndoHdrReuse
  exact Eats.congr (Eats.ull h (by rw [List.length_nil]; omega) fun _ => Eats.pure _) (List.append_nil _)

theorem Eats.hdrCreate {n : Nat} (h : n < 2 ^ 64) : Eats la d (mlogUndoHdrCreate d) (ullCompEnc n) (Pure.pure ()) := by
  unfold mlogUndoHdrCreate
  refine Eats.mpc (by omega) ?_
  exact Eats.skip (matchGetCompressedSize_eq _).symm (Eats.skip' (beEnc_length 4 _))

theorem Eats.writeString (off : Nat) {data : Bytes} (h : data.length < 2 ^ 16) :
    Eats la d (mlogWriteString d) (beEnc 2 off ++ (beEnc 2 data.length ++ data)) (Pure.pure ()) := by
  unfold mlogWriteString
  refine Eats.rd read2_eq (beEnc_length 2 _) (Eats.rd read2_eq (beEnc_length 2 _) (Eats.skip' ?_))
  rw [beVal_beEnc (w := 2) h]

theorem Eats.name {name : Bytes} (h : name.length < 2 ^ 16) :
    Eats la d (here read2 d >>= fun n => addPos 2 >>= fun _ => addPos n) (nameEnc name) (Pure.pure ()) := by
  refine Eats.rd read2_eq (beEnc_length 2 _) (Eats.skip' ?_)
  rw [beVal_beEnc (w := 2) h]

theorem Eats.fileOp {ty : Nat} (ht : ty ≠ 47) {name : Bytes} (h : name.length < 2 ^ 16) :
    Eats la d (mlogFileOp d ty) (nameEnc name) (Pure.pure ()) := by
  unfold mlogFileOp
  dsimp only
  rw [if_neg (show ¬ ty = MLOG_FILE_CREATE2 from ht)]
  exact Eats.name h

theorem Eats.fileCreate2 (flags : Nat) {name : Bytes} (h : name.length < 2 ^ 16) :
    Eats la d (mlogFileOp d 47) (beEnc 4 flags ++ nameEnc name) (Pure.pure ()) := by
  unfold mlogFileOp
  dsimp only
  rw [if_pos (show 47 = MLOG_FILE_CREATE2 from rfl)]
  refine Eats.rd read4_eq (beEnc_length 4 _) ?_
  exact Eats.name h

theorem Eats.recInsert {ix : Option IndexInfo} (hi : ixFits ix) {ty : Nat} (ht : decide (ty = MLOG_COMP_REC_INSERT) = ix.isSome) (off : Nat) {ins : Insert}
    (h : ins.Fits) : Eats la d (mlogRecInsert d ty) (ixEnc ix ++ (beEnc 2 off ++ ins.enc)) (Pure.pure none) := by
  unfold mlogRecInsert
  exact Eats.seq (Eats.index ix hi _ ht) (Eats.insert false off ins h)

theorem Eats.sys {v : SysVals} (hv : v.Fits) {e' : Bytes} (hla : (compEnc (v.trx / 2 ^ 32)).length ≤ e'.length + la) {k : RM β} {z : Bytes → RM β} {g : GoM Out β} (hk : Eats la d k e' g) :
    Eats la d (here matchParseCompressed d >>= fun pc => match pc.err with
      | some e => z e
      | none => addPos pc.num >>= fun _ => here read7 d >>= fun _ => addPos 7 >>= fun _ => ullReadCompressed d >>= fun _ => k) (v.enc ++ e') g := by
  unfold SysVals.enc
  refine Eats.congr (Eats.mpc (e' := beEnc 7 v.roll ++ (ullCompEnc v.trx ++ e')) hv.1 ?_) (by simp only [List.append_assoc])
  exact Eats.skip rfl (Eats.rd read7_eq (beEnc_length 7 _) (Eats.ull hv.2 hla fun _ => hk))

theorem Eats.clustDel {ix : Option IndexInfo} (hi : ixFits ix) {ty : Nat} (ht : decide (ty = MLOG_COMP_REC_CLUST_DELETE_MARK) = ix.isSome)
    (flags val off : Nat) {v : SysVals} (hv : v.Fits) (hla : (compEnc (v.trx / 2 ^ 32)).length ≤ 2 + la) :
    Eats la d (mlogRecClustDeleteMark d ty) (ixEnc ix ++ (beEnc 1 flags ++ (beEnc 1 val ++ (v.enc ++ beEnc 2 off)))) (Pure.pure none) := by
  unfold mlogRecClustDeleteMark
  refine Eats.seq (Eats.index ix hi _ ht) ?_
  refine Eats.rd read1_eq (beEnc_length 1 _) (Eats.rd read1_eq (beEnc_length 1 _) ?_)
  refine Eats.sys hv (by rw [beEnc_length]; exact hla) ?_
  exact Eats.congr (Eats.rd read2_eq (beEnc_length 2 off) (Eats.pure _)) (List.append_nil _)

theorem Eats.delete {ix : Option IndexInfo} (hi : ixFits ix) {b : Bool} (hb : b = ix.isSome) (off : Nat) :
    Eats la d (mlogDeleteBody d b) (ixEnc ix ++ beEnc 2 off) (Pure.pure none) := by
  unfold mlogDeleteBody
  refine Eats.seq (Eats.index ix hi _ hb) ?_
  exact Eats.congr (Eats.rd read2_eq (beEnc_length 2 off) (Eats.pure _)) (List.append_nil _)

theorem Eats.reorganize {ix : Option IndexInfo} (hi : ixFits ix) {ty : Nat} (ht : decide (ty ≠ MLOG_PAGE_REORGANIZE) = ix.isSome)
    (h : ty ≠ MLOG_ZIP_PAGE_REORGANIZE) : Eats la d (mlogPageReorganize d ty) (ixEnc ix) (Pure.pure none) := by
  unfold mlogPageReorganize
  refine Eats.congr (Eats.seq (e' := []) (Eats.index ix hi _ ht) ?_) (List.append_nil _)
  dsimp only
  rw [if_neg h]
  exact Eats.pure _

theorem Eats.zipReorganize {ix : IndexInfo} (hi : ix.Fits) (level : Nat) :
    Eats la d (mlogPageReorganize d 53) (ix.enc ++ beEnc 1 level) (Pure.pure none) := by
  unfold mlogPageReorganize
  refine Eats.seq (Eats.index (some ix) hi _ rfl) ?_
  dsimp only
  rw [if_pos (show 53 = MLOG_ZIP_PAGE_REORGANIZE from rfl)]
  exact Eats.congr (Eats.rd read1_eq (beEnc_length 1 level) (Eats.pure _)) (List.append_nil _)

theorem Eats.zipNoData {ix : IndexInfo} (hi : ix.Fits) (level : Nat) :
    Eats la d (mlogZipPageCompressNoData d) (ix.enc ++ beEnc 1 level) (Pure.pure none) := by
  unfold mlogZipPageCompressNoData
  refine Eats.seq (Eats.index (some ix) hi _ rfl) ?_
  exact Eats.congr (Eats.rd read1_eq (beEnc_length 1 level) (Eats.pure _)) (List.append_nil _)

theorem Eats.zipNode (off zoff ptr : Nat) : Eats la d (mlogZipWriteNodePtr d) (beEnc 2 off ++ (beEnc 2 zoff ++ beEnc 4 ptr)) (Pure.pure ()) := by
  unfold mlogZipWriteNodePtr
  exact Eats.rd read2_eq (beEnc_length 2 _) (Eats.rd read2_eq (beEnc_length 2 _) (Eats.skip' (beEnc_length 4 _)))

theorem Eats.zipHeader (off : Nat) {data : Bytes} (h : data.length < 2 ^ 8) :
    Eats la d (mlogZipWriteHeader d) (beEnc 1 off ++ (beEnc 1 data.length ++ data)) (Pure.pure ()) := by
  unfold mlogZipWriteHeader
  refine Eats.rd read1_eq (beEnc_length 1 _) (Eats.rd read1_eq (beEnc_length 1 _) (Eats.skip' ?_))
  rw [beVal_beEnc (w := 1) h]

theorem Eats.zipCompress (prev next : Nat) {data trailer : Bytes} (h : data.length < 2 ^ 16) (h' : trailer.length < 2 ^ 16) :
    Eats la d (mlogZipPageCompress d) (beEnc 2 data.length ++ (beEnc 2 trailer.length ++ (beEnc 4 prev ++ (beEnc 4 next ++ (data ++ trailer)))))
      (Pure.pure ()) := by
  unfold mlogZipPageCompress
  refine Eats.rd read2_eq (beEnc_length 2 _) (Eats.rd read2_eq (beEnc_length 2 _) (Eats.skip' ?_))
  rw [beVal_beEnc (w := 2) h, beVal_beEnc (w := 2) h']
  simp only [List.length_append, beEnc_length]
  omega

theorem Eats.fieldsLoop (fields : List (Nat × Option Bytes)) (hf : ∀ f ∈ fields, fieldFits f) (hn : ∀ f ∈ fields, f.2 ≠ none) :
    Eats la d (updFieldsLoop d fields.length) (fields.flatMap fieldEnc) (Pure.pure none) := by
  induction fields with
  | nil => exact Eats.pure _
  | cons f fs ih =>
    obtain ⟨n, v⟩ := f
    cases v with
    | none => exact absurd rfl (hn _ List.mem_cons_self)
    | some v =>
      obtain ⟨h1, h2⟩ := hf _ List.mem_cons_self
      have h3 : v.length < 2 ^ 32 := by
        have : v.length < 2 ^ 32 - 1 := h2 v rfl
        omega
      have ih := ih (fun f h => hf f (List.mem_cons_of_mem _ h)) (fun f h => hn f (List.mem_cons_of_mem _ h))
      rw [List.length_cons, updFieldsLoop]
      have e : ((n, some v) :: fs).flatMap fieldEnc = compEnc n ++ (compEnc v.length ++ (v ++ fs.flatMap fieldEnc)) := by
        rw [List.flatMap_cons]
        simp only [fieldEnc, valueEnc, List.append_assoc]
      rw [e]
      refine Eats.mpc h1 ?_
      refine Eats.skip rfl (Eats.mpc h3 ?_)
      exact Eats.skip rfl (Eats.skip rfl ih)

theorem Eats.guard7 {e : Bytes} (he : 7 ≤ e.length) {x m : RM β} {g : GoM Out β} (h : Eats la d m e g) :
    Eats la d (getPos >>= fun p => if d.length < p + 7 then x else m) e g := by
  intro pre suf hd hs out
  have := h pre suf hd hs out
  rw [getPos_bind, if_neg]
  · exact this
  · rw [hd]
    simp only [List.length_append]
    omega

theorem Eats.recover {e : Bytes} {m : RM β} {a b : β} {f : RS → RS} (h : Eats la d m e (Pure.pure a)) :
    Eats la d (GoM.recover m b f) e (Pure.pure a) := by
  intro pre suf hd hs out
  have h1 : m ⟨pre.length, out⟩ = .ok a ⟨pre.length + e.length, out⟩ := h pre suf hd hs out
  show GoM.recover m b f ⟨pre.length, out⟩ = _
  unfold GoM.recover
  rw [h1]

theorem Eats.updateInPlace {ix : Option IndexInfo} (hi : ixFits ix) {ty : Nat} (ht : decide (ty = MLOG_COMP_REC_UPDATE_IN_PLACE) = ix.isSome)
    (flags off info : Nat) {v : SysVals} (hv : v.Fits) {fields : List (Nat × Option Bytes)} (hl : fields.length < 2 ^ 32)
    (hf : ∀ f ∈ fields, fieldFits f) (hn : ∀ f ∈ fields, f.2 ≠ none)
    (hla : (compEnc (v.trx / 2 ^ 32)).length ≤ 4 + (fields.flatMap fieldEnc).length + la) :
    Eats la d (mlogRecUpdateInPlace d ty) (ixEnc ix ++ (beEnc 1 flags ++ (v.enc ++ (beEnc 2 off ++ updateEnc info fields)))) (Pure.pure none) := by
  unfold mlogRecUpdateInPlace
  refine Eats.recover ?_
  unfold updInPlaceBody
  refine Eats.seq (Eats.index ix hi _ ht) ?_
  refine Eats.rd read1_eq (beEnc_length 1 _) ?_
  unfold SysVals.enc updateEnc
  refine Eats.congr (Eats.mpc (e' := beEnc 7 v.roll ++ (ullCompEnc v.trx ++ (beEnc 2 off ++ (beEnc 1 info ++ (compEnc fields.length ++ fields.flatMap fieldEnc))))) hv.1 ?_)
    (by simp only [List.append_assoc])
  refine Eats.skip rfl (Eats.guard7 (by rw [List.length_append, beEnc_length]; omega) ?_)
  refine Eats.rd read7_eq (beEnc_length 7 _) (Eats.ull hv.2 ?_ fun _ => ?_)
  · have := List.length_pos_iff.mpr (compEnc_ne_nil fields.length)
    simp only [List.length_append, beEnc_length]
    omega
  refine Eats.rd read2_eq (beEnc_length 2 _) (Eats.rd read1_eq (beEnc_length 1 _) ?_)
  refine Eats.mpc hl ?_
  exact Eats.skip rfl (Eats.fieldsLoop fields hf hn)

theorem Insert.enc_pos (i : Insert) : 0 < i.enc.length := by
  have h : ∀ n, 0 < (compEnc n).length := fun n => List.length_pos_iff.mpr (compEnc_ne_nil n)
  unfold Insert.enc
  split <;> (rw [List.length_append]; have := h (2 * i.data.length); have := h (2 * i.data.length + 1); omega)

theorem copyLoop_enc (recs : List Insert) (hr : ∀ i ∈ recs, i.Fits) (pre suf : Bytes) (hd : d = pre ++ recs.flatMap Insert.enc ++ suf)
    (out : Out) (fuel : Nat) (hfu : (recs.flatMap Insert.enc).length < fuel) (q : Nat)
    (hq : q = pre.length + (recs.flatMap Insert.enc).length) :
    copyLoop d q fuel ⟨pre.length, out⟩ = .ok none ⟨q, out⟩ := by
  induction recs generalizing pre fuel with
  | nil =>
    cases fuel with
    | zero => exact absurd hfu (Nat.not_lt_zero _)
    | succ fuel =>
      rw [copyLoop, getPos_bind, if_neg (by rw [hq]; exact Nat.lt_irrefl _)]
      rw [hq]
      rfl
  | cons i recs ih =>
    cases fuel with
    | zero => exact absurd hfu (Nat.not_lt_zero _)
    | succ fuel =>
      rw [List.flatMap_cons] at hd hfu hq
      rw [List.length_append] at hfu hq
      have hp := Insert.enc_pos i
      have h1 : parseInsertHere true d ⟨pre.length, out⟩ = .ok none ⟨pre.length + i.enc.length, out⟩ :=
        Eats.insert (la := 0) true 0 i (hr _ List.mem_cons_self) pre (recs.flatMap Insert.enc ++ suf)
          (by rw [hd]; simp only [List.append_assoc, if_true, List.nil_append]) (Nat.zero_le _) out
      rw [copyLoop, getPos_bind, if_pos (by show pre.length < q; omega), GoM.bind_ok h1]
      have := ih (fun j h => hr j (List.mem_cons_of_mem _ h)) (pre ++ i.enc) (by rw [hd]; simp only [List.append_assoc]) fuel (by omega)
        (by rw [hq, List.length_append, Nat.add_assoc])
      rw [List.length_append] at this
      exact this

theorem Eats.copyCreated {ix : Option IndexInfo} (hi : ixFits ix) {ty : Nat} (ht : decide (ty = MLOG_COMP_LIST_END_COPY_CREATED) = ix.isSome)
    {recs : List Insert} (hr : ∀ i ∈ recs, i.Fits) (hl : (recs.flatMap Insert.enc).length < 2 ^ 32) :
    Eats la d (mlogListEndCopyCreated d ty) (ixEnc ix ++ (beEnc 4 (recs.flatMap Insert.enc).length ++ recs.flatMap Insert.enc)) (Pure.pure none) := by
  unfold mlogListEndCopyCreated
  refine Eats.seq (Eats.index ix hi _ ht) ?_
  refine Eats.rd read4_eq (beEnc_length 4 _) ?_
  rw [beVal_beEnc (w := 4) hl]
  intro pre suf hd hs out
  show _ = _
  rw [getPos_bind]
  dsimp only
  rw [if_neg]
  · exact copyLoop_enc recs hr pre suf hd out _ (by omega) _ rfl
  · rw [hd]
    simp only [List.length_append]
    omega

end

end Verif
