/-!
# The fragment of Go semantics used by the model

Nothing in this file models a file of `/repo`; it models the language the code is written in.

* A byte string / `[]byte` / `string` is a `List UInt8`.
* A Go panic inside a pure helper is `none`; inside stateful code it is `R.panic`, which keeps the state that
  had been reached (observable through `recover`, and through what was already printed).
* A loop that never ends is `R.hang`.
* `uint64` values are `Nat`s; where the code can wrap around, the wrap is explicit (`u64`, `sub64`, `not64`).
* An `error` is `Option Bytes`: `none` is `nil`, `some msg` an error whose `Error()` text is `msg`.
-/

namespace Verif

abbrev Bytes := List UInt8

/-- `b! "text"` is the list of the bytes of a string literal (a Go string constant). -/
syntax "b!" str : term
open Lean in
macro_rules
  | `(b! $s:str) => do
      let elems := (s.getString.toUTF8.toList.map fun b => Syntax.mkNumLit (toString b.toNat)).toArray
      `(([$elems,*] : List UInt8))

/-- Outcome of a piece of Go code that acts on a state `σ`. -/
inductive R (σ α : Type) where
  /-- normal completion -/
  | ok (a : α) (s : σ)
  /-- run-time panic (index out of range, failed type assertion, ...) -/
  | panic (s : σ)
  /-- the code loops forever -/
  | hang (s : σ)
deriving Repr, DecidableEq

/-- Go code acting on a state `σ`. -/
def GoM (σ α : Type) : Type := σ → R σ α

namespace GoM

@[inline] protected def pure {σ α} (a : α) : GoM σ α := fun s => .ok a s

@[inline] protected def bind {σ α β} (m : GoM σ α) (f : α → GoM σ β) : GoM σ β := fun s =>
  match m s with
  | .ok a s' => f a s'
  | .panic s' => .panic s'
  | .hang s' => .hang s'

instance {σ} : Monad (GoM σ) where
  pure := GoM.pure
  bind := GoM.bind

/-- Run a pure helper; `none` (a panic in the helper) becomes a panic here. -/
def lift {σ α} (o : Option α) : GoM σ α := fun s =>
  match o with
  | some a => .ok a s
  | none => .panic s

def get {σ} : GoM σ σ := fun s => .ok s s
def modify {σ} (f : σ → σ) : GoM σ Unit := fun s => .ok () (f s)
def hang {σ α} : GoM σ α := fun s => .hang s
def panic {σ α} : GoM σ α := fun s => .panic s

/-- `defer func() { if err := recover(); err != nil { h } }()`: a panic is turned into a normal return of the
zero result `z` after running the handler `h` on the state at the panic. -/
def recover {σ α} (m : GoM σ α) (z : α) (h : σ → σ) : GoM σ α := fun s =>
  match m s with
  | .panic s' => .ok z (h s')
  | r => r

/-- Run code acting on a component of the state. -/
def zoom {σ τ α} (get : σ → τ) (put : τ → σ → σ) (m : GoM τ α) : GoM σ α := fun s =>
  match m (get s) with
  | .ok a t => .ok a (put t s)
  | .panic t => .panic (put t s)
  | .hang t => .hang (put t s)

end GoM

/-- What has been printed to standard output, line by line, in order. -/
abbrev Out := List Bytes

/-- `fmt.Println(line)` -/
def println (line : Bytes) : GoM Out Unit := GoM.modify (· ++ [line])

/-- Go `s[lo:]` for an index that is an unsigned or known non-negative number: panics when `lo > len(s)`. -/
def sliceFrom {α} (s : List α) (lo : Nat) : Option (List α) :=
  if lo ≤ s.length then some (s.drop lo) else none

/-- Go `s[lo:]` for an `int` index, which may be negative: panics when negative or beyond the length. -/
def sliceFromInt {α} (s : List α) (lo : Int) : Option (List α) :=
  if 0 ≤ lo then sliceFrom s lo.toNat else none

/-- Go `s[:hi]`.  Go compares `hi` with the capacity; the model compares with the length.  Every call in the
code base is made with `hi ≤ len(s)` or on a slice whose capacity equals its length, except the one in
`mlogUndoInsert`, which is modelled with an explicit spare capacity. -/
def sliceTo {α} (s : List α) (hi : Nat) : Option (List α) :=
  if hi ≤ s.length then some (s.take hi) else none

/-- Go `s[i] = v` -/
def setIdx {α} (s : List α) (i : Nat) (v : α) : Option (List α) :=
  if i < s.length then some (s.set i v) else none

/-- truncation to 64 bits -/
def u64 (n : Nat) : Nat := n % 2 ^ 64

/-- `uint64` subtraction `a - b` for operands below `2^64`, with wrap-around. -/
def sub64 (a b : Nat) : Nat := (a + 2 ^ 64 - b) % 2 ^ 64

/-- `uint64` complement `^a` -/
def not64 (a : Nat) : Nat := 2 ^ 64 - 1 - a

/-- `uint64` and-not `a &^ b` -/
def andNot64 (a b : Nat) : Nat := a &&& not64 b

/-- conversion `int64(n)` (and `int(n)`, `int` being 64 bits wide) of a `uint64` -/
def toI64 (n : Nat) : Int := if n < 2 ^ 63 then (n : Int) else (n : Int) - 2 ^ 64

/-- Decimal digits of a number, most significant first; `fuel` bounds the number of digits. -/
def decAux : Nat → Nat → Bytes → Bytes
  | 0, _, acc => acc
  | fuel + 1, n, acc =>
    let acc := UInt8.ofNat (48 + n % 10) :: acc
    if n < 10 then acc else decAux fuel (n / 10) acc

/-- `fmt` verb `%d` / `%v` of an unsigned number -/
def dec (n : Nat) : Bytes := decAux (n + 1) n []

/-- `fmt` verb `%d` / `%v` of a signed number -/
def decInt (i : Int) : Bytes := if i < 0 then 45 :: dec i.natAbs else dec i.natAbs

/-- `fmt` verb `%02d` of an unsigned number -/
def dec2 (n : Nat) : Bytes := if n < 10 then 48 :: dec n else dec n

/-- A dynamically typed Go value (`interface{}`) as produced by the column decoder. -/
inductive Val where
  | nil
  | str (s : Bytes)
  /-- Go `int` or `int64` -/
  | int (i : Int)
  /-- Go `uint64` -/
  | uint (n : Nat)
  /-- `float32`, by its IEEE bit pattern -/
  | f32 (bits : Nat)
  /-- `float64`, by its IEEE bit pattern -/
  | f64 (bits : Nat)
deriving Repr, DecidableEq

/-- How Go's `%v` prints floating point numbers; kept abstract (a parameter of everything that prints). -/
structure FloatFmt where
  f32 : Nat → Bytes
  f64 : Nat → Bytes

/-- `fmt.Sprintf("%v", v)` -/
def fmtV (ff : FloatFmt) : Val → Bytes
  | .nil => b! "<nil>"
  | .str s => s
  | .int i => decInt i
  | .uint n => dec n
  | .f32 b => ff.f32 b
  | .f64 b => ff.f64 b

/-- type assertion `v.(uint64)` -/
def Val.asUint : Val → Option Nat
  | .uint n => some n
  | _ => none

/-- type assertion `v.(string)` -/
def Val.asStr : Val → Option Bytes
  | .str s => some s
  | _ => none

/-- `bytes.IndexByte(s, c)`; `none` stands for `-1`. -/
def indexByte (s : Bytes) (c : UInt8) : Option Nat := s.findIdx? (· == c)

end Verif
