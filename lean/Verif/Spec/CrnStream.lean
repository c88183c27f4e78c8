import Verif.Spec.PrefixCode

/-!
# Specification: reading a Crunch bit stream

The sections of a Crunch file are bit streams, most significant bit first. A reader takes what it
needs from the front of the bits, and refuses bits that are not what it expects.
-/

namespace Verif.Spec.Crn

/-- Reads a value from the front of the bits; `none` if the bits are refused. -/
abbrev Reader := StateT (List Bool) Option

/-- Refuses unless `p` holds. -/
def require (p : Prop) [Decidable p] : Reader Unit :=
  fun bits => if p then some ((), bits) else none

/-- A number of `n` bits. -/
def number (n : Nat) : Reader Nat :=
  fun bits => if n ≤ bits.length then some (ofBits (bits.take n), bits.drop n) else none

/-- A symbol of the prefix code with the lengths `code`. -/
def symbol (code : List Nat) : Reader Nat := readSymbol code

/-- The same thing `n` times. -/
def many {α : Type} (r : Reader α) : Nat → Reader (List α)
  | 0 => pure []
  | n + 1 => do
    let a ← r
    let l ← many r n
    pure (a :: l)

/-- `n` values, each read with the knowledge of the one before it. -/
def scan {α : Type} (r : α → Reader α) : Nat → α → Reader (List α)
  | 0, _ => pure []
  | n + 1, a => do
    let a ← r a
    let l ← scan r n a
    pure (a :: l)

/-! ## Prefix codes in a stream

The lengths of a code are themselves written with a prefix code, of 21 symbols: the lengths 0 to
16, two kinds of runs of zeros and two kinds of repetitions. -/

/-- The order in which the lengths of the 21 symbols are written. -/
def lengthOrder : List Nat :=
  [17, 18, 19, 20, 0, 8, 7, 9, 6, 10, 5, 11, 4, 12, 3, 13, 2, 14, 1, 15, 16]

/-- The lengths that follow the lengths in `before`: one length, or a run of them. Only a length
that is not zero can be repeated. -/
def lengthRun (code before : List Nat) : Reader (List Nat) := do
  let s ← symbol code
  if s ≤ 16 then pure [s]
  else if s = 17 then do
    let n ← number 3
    pure (List.replicate (n + 3) 0)
  else if s = 18 then do
    let n ← number 7
    pure (List.replicate (n + 11) 0)
  else do
    let last := before.getLastD 0
    require (last ≠ 0)
    let n ← (if s = 19 then number 2 else number 6)
    pure (List.replicate (n + if s = 19 then 3 else 7) last)

/-- Runs of lengths until there are `total` of them. Every run has at least one length, so `total`
runs are enough; the third argument bounds their number. -/
def lengthRuns (code : List Nat) (total : Nat) : Nat → List Nat → Reader (List Nat)
  | 0, l => do
    require (l.length = total)
    pure l
  | n + 1, l =>
    if l.length = total then pure l
    else do
      let run ← lengthRun code l
      require (l.length + run.length ≤ total)
      lengthRuns code total n (l ++ run)

/-- The lengths of the 21 symbols from the first `ls.length` of them in the order they are
written. -/
def lengthCode (ls : List Nat) : List Nat :=
  (List.range 21).map fun s => ls.getD (lengthOrder.idxOf s) 0

/-- A prefix code: the number of symbols, the code for the lengths, and the lengths. Neither code
may have more codes than fit. -/
def prefixCode : Reader (List Nat) := do
  let total ← number 14
  require (1 ≤ total ∧ total ≤ 8192)
  let n ← number 5
  require (1 ≤ n ∧ n ≤ 21)
  let ls ← many (number 3) n
  require (usedSpace (lengthCode ls) 16 ≤ 2 ^ 16)
  let lens ← lengthRuns (lengthCode ls) total total []
  require (usedSpace lens 16 ≤ 2 ^ 16)
  pure lens

end Verif.Spec.Crn
