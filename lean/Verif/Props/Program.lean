import Verif.Props.MainWitness
import Verif.Props.RedoEffect
/-!
# C72, C74 for the program: from the arguments and the files to the tables of the server
-/

namespace Verif.Props
open Verif Spec

/-- the arguments of the data command on this line -/
def CmdLine.data (l : CmdLine) (fs : Bytes → File) : FromData :=
  ⟨fs (l.value (b! "SysDataFile")), fs (l.value (b! "TableDataFile")), l.value (b! "DBName"), l.value (b! "TableName"), l.value (b! "OpType")⟩

/-- the arguments of the redo command on this line -/
def CmdLine.redoArgs (l : CmdLine) (fs : Bytes → File) : FromRedo :=
  ⟨fs (l.value (b! "SysDataFile")), l.value (b! "RedoFile"), l.value (b! "DBName"), l.value (b! "TableName")⟩

/-- **C72 for the program:** a line that begins with `recovery` and names files as in C72 ends with status 0, and its standard output, executed on
an empty table, gives the rows of the data file. -/
theorem C72_program_partial (env : Env) (fs : Bytes → File) (spare : Nat) (accepts : Bytes → Bytes → Bool) (c : CmdLine)
    (hv : c.Valid) (hd : c.Distinct) (hpre : c.pre = []) (hop : c.redo = false)
    (sys ibd : Bytes) (trs : List TableRow) (crs : List ColumnRow) (irs : List IndexRow) (frs : List FieldRow)
    (t : TableRow) (r : IndexRow) (l : List Column) (defs : List ColDef) (deleted : Bool) (rows : List (List (Option TVal)))
    (sv : Server) (same : List Orig → List Orig → Bool)
    (hp : PrintableFile env (CmdLine.data c fs) sys ibd trs crs irs frs t r l defs deleted rows)
    (ht : TableFile env ibd r.id (columnsOf crs t.id) l defs deleted rows) (hf : fs (c.value (b! "TableDataFile")) = .ok ibd)
    (hr : ∀ row ∈ rows, ∀ x ∈ row, ReadsNumber sv env.ff x) (hk : (rows.map (sqlRow env.ff)).Pairwise (fun r r' => same r r' = false)) :
    ∃ lines, runMain env fs spare accepts c.argv = .exit 0 lines ∧
      execScript sv (columnsOf crs t.id) same (c.value (b! "DBName")) (c.value (b! "TableName")) (stdout lines) [] = some (rows.map (sqlRow env.ff)) := by
  obtain ⟨lines, h1, h2⟩ := C72_restores_partial env (CmdLine.data c fs) sys ibd trs crs irs frs t r l defs deleted rows sv same hp ht hf hr hk
  refine ⟨lines, ?_, h2⟩
  rw [C65_options_partial env fs spare accepts c hv hd hpre]
  unfold CmdLine.run
  rw [hop]
  exact congrArg ended h1

/-- **C74 for the program:** a line that begins with `recovery` and names files as in C74 ends with status 0, and its standard output undoes the
updates if no column of a row was updated twice; from the last line to the first always. -/
theorem C74_program_partial (env : Env) (fs : Bytes → File) (spare : Nat) (accepts : Bytes → Bytes → Bool) (c : CmdLine)
    (hv : c.Valid) (hd : c.Distinct) (hpre : c.pre = []) (hop : c.redo = true) (sys : Bytes) (trs : List TableRow) (crs : List ColumnRow)
    (irs : List IndexRow) (frs : List FieldRow) (names : List Bytes) (parts : List (List Bytes)) (its : List Item) (chs : List (Option Change))
    (sv : Server) (cols : Bytes → Bytes → List Column) (pk : Bytes → Bytes → List Bytes) (S S' : Tables)
    (hsys : fs (c.value (b! "SysDataFile")) = .ok sys) (hdict : Dictionary sys trs crs irs frs) (hne : names ≠ []) (hn : ∀ n ∈ names, 44 ∉ n)
    (ha : c.value (b! "RedoFile") = commaList names)
    (hp : All2 (fun chunks n => ∃ content, fs n = .ok content ∧ IsLogFile chunks content) parts names)
    (hs : parts.flatten.flatten = its.flatMap Item.enc) (hf : ∀ it ∈ its, it.Fits)
    (harr : ∀ t ∈ trs, UsualKeys irs frs crs t.id) (hfl : All2 (Followed env (CmdLine.redoArgs c fs) trs crs irs frs) its chs)
    (hplain : ∀ ch, some ch ∈ chs → Wanted (CmdLine.redoArgs c fs) ch = true → Plainly env.ff ch)
    (hah : Ahead its) (hlen : (its.flatMap Item.enc).length < 2 ^ 32)
    (hcols : SameColumns trs crs cols) (hreads : ∀ ch, some ch ∈ chs → ReadsChange sv env.ff ch)
    (hh : Happened cols pk env.ff ((chs.filterMap id).filter (Wanted (CmdLine.redoArgs c fs))) S S') :
    ∃ lines, runMain env fs spare accepts c.argv = .exit 0 lines ∧ execUpdates sv cols (stdout lines.reverse) S' = some S ∧
      (((chs.filterMap id).filter (Wanted (CmdLine.redoArgs c fs))).Pairwise (Apart env.ff) → execUpdates sv cols (stdout lines) S' = some S) := by
  obtain ⟨lines, h1, h2, h3⟩ := redo_effect env fs (CmdLine.redoArgs c fs) spare sys trs crs irs frs names parts its chs sv cols pk S S' hsys hdict hne hn ha
    hp hs hf harr hfl hplain hah hlen hcols hreads hh
  refine ⟨lines, ?_, by rw [h3, undo_reverse hh], fun hapart => by rw [h2, undo_forward hh hapart]⟩
  rw [C65_options_partial env fs spare accepts c hv hd hpre]
  unfold CmdLine.run
  rw [hop]
  exact congrArg ended h1

/-- the shop: from the arguments to the rows of the table -/
example (env : Env) (spare : Nat) (accepts : Bytes → Bytes → Bool) (sv : Server) :
    ∃ lines, runMain env shopFiles spare accepts (shopLine false).argv = .exit 0 lines ∧
      execScript sv (columnsOf shopColumns 20) sameFirst (b! "shop") (b! "t") (stdout lines) [] = some [[.int 1, .text (b! "ann")], [.int 2, .null]] := by
  have e : CmdLine.data (shopLine false) shopFiles = shopArgs (b! "ann") false := by
    have f1 : shopFiles ((shopLine false).value (b! "SysDataFile")) = .ok (shopFile idKey) := if_pos (by decide)
    have f2 : shopFiles ((shopLine false).value (b! "TableDataFile")) = .ok (shopData (b! "ann")) := if_neg (by decide)
    unfold CmdLine.data shopArgs
    rw [f1, f2]
    rfl
  exact C72_program_partial env shopFiles spare accepts (shopLine false) (shopLine_valid false) ⟨by decide, by decide⟩ rfl rfl _ _ _ _ _ _ _ _ _ _ false
    (shopRows (b! "ann") false) sv sameFirst (by rw [e]; exact shop_whole env false) (shopData_file env (.inl rfl) false) (if_neg (by decide))
    (shop_numbers _ _ _ _) (by
      show [[Orig.int 1, .text (b! "ann")], [.int 2, .null]].Pairwise _
      decide)

/-- `recovery FromRedoFile --SysDataFile ibdata1 --RedoFile=ib_logfile0 --DBName=shop` -/
def redoLine2 : CmdLine where
  redo := true
  post := [⟨b! "SysDataFile", b! "ibdata1", false⟩, ⟨b! "RedoFile", b! "ib_logfile0", true⟩, ⟨b! "DBName", b! "shop", true⟩]

def redoFiles2 (n : Bytes) : File := if n = b! "ibdata1" then .ok (shopFile idKey) else shopDisk2 8 n

/-- the shop: from the arguments to the table before the updates -/
example (env : Env) (spare : Nat) (accepts : Bytes → Bytes → Bool) (sv : Server) :
    ∃ lines, runMain env redoFiles2 spare accepts redoLine2.argv = .exit 0 lines ∧
      execUpdates sv shopCols (stdout lines) (shopState [shopRow 7 (b! "zoe"), shopRow 8 (b! "pat")]) =
        some (shopState [shopRow 7 (b! "bob"), shopRow 8 (b! "eve")]) := by
  have e : CmdLine.redoArgs redoLine2 redoFiles2 = shopRedo2 := by
    have f1 : redoFiles2 (redoLine2.value (b! "SysDataFile")) = .ok (shopFile idKey) := if_pos (by decide)
    unfold CmdLine.redoArgs shopRedo2
    rw [f1]
    rfl
  obtain ⟨lines, h1, -, h2⟩ := C74_program_partial env redoFiles2 spare accepts redoLine2 ⟨by decide, by decide⟩ ⟨by decide, by decide⟩ rfl rfl
    (shopFile idKey) shopTables shopColumns (shopIndexes idKey) (shopFields idKey) [b! "ib_logfile0"]
    [[(shopLog2 8).flatMap Item.enc]] (shopLog2 8) (shopChanges2 8) sv shopCols (fun _ _ => [b! "id"]) _ _ (if_pos (by decide))
    (shop_dictionary (.inl rfl)) (by decide) (by decide) (by decide)
    (by
      cases shop2_disk (.inr rfl : SevenEight 8) with
      | cons h1 h2 =>
        cases h2
        have : redoFiles2 (b! "ib_logfile0") = shopDisk2 8 (b! "ib_logfile0") := if_neg (by decide)
        exact .cons (by rw [this]; exact h1) .nil)
    (by simp) (shop2_fits (.inr rfl)) shop_arranged (by rw [e]; exact shop2_followed env (.inr rfl))
    (fun ch hch _ => by
      rcases shop2_mem hch with rfl | rfl
      · exact shopChange2_plainly env (.inl rfl) (.inl rfl)
      · exact shopChange2_plainly env (.inr rfl) (.inr rfl))
    (shop2_ahead (.inr rfl)) (by have := shop2_length (.inr rfl : SevenEight 8); omega) shop2_cols (shop2_reads sv env.ff 8)
    (by rw [e]; exact shop2_apart env.ff)
  refine ⟨lines, h1, h2 ?_⟩
  rw [e]
  refine .cons ?_ (List.pairwise_singleton _ _)
  intro d hd
  cases List.mem_singleton.mp hd
  right; right; left
  show [(b! "id", Orig.int 7)] ≠ [(b! "id", .int 8)]
  decide

end Verif.Props
