import Verif.Spec.Columns
/-!
# Specification: decoding a sequence of records

What it means to decode given records one after the other, without reference to how they are found in the page.
-/

namespace Verif.Spec

/-- Decode the records at the given offsets one after the other; stop at the first that is rejected. -/
def visit (env : Env) (tables : TableMap) (d : Bytes) (c : Bool) : List Nat → GoM PState (List (List Column))
  | [] => pure []
  | o :: os => do
    match ← parseOne env tables d c o with
    | none => pure []
    | some r => do
      let rest ← visit env tables d c os
      pure (r :: rest)

/-- Decode one row from its cells and what follows it on the page; the columns keep the values, as `parseRecords` does. -/
def decodeRowP (env : Env) (row : Row) (post : Bytes) : GoM PState (List Column) := fun s =>
  match decodeRow env s.cols row post s.out with
  | .ok cs out => .ok cs ⟨cs, out⟩
  | .panic out => .panic { s with out := out }
  | .hang out => .hang { s with out := out }

/-- Decode a sequence of rows. -/
def decodeRows (env : Env) : List (Row × Bytes) → GoM PState (List (List Column))
  | [] => pure []
  | (row, post) :: rest => do
    let cs ← decodeRowP env row post
    let r ← decodeRows env rest
    pure (cs :: r)

end Verif.Spec
