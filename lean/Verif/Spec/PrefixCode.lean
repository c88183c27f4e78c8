/-!
# Specification: canonical prefix codes

A prefix code is given by the list of the code lengths of its symbols; length 0 means that the
symbol is not used. The codes are assigned in the order of the lengths, and for the same length in
the order of the symbols: the code of a symbol is the sum of the sizes of the codes before it.
-/

namespace Verif.Spec.Crn

/-- The `n` bits of `v`, most significant bit first. -/
def msbBits (n v : Nat) : List Bool := (List.range n).map (fun i => v.testBit (n - 1 - i))

/-- The number written by bits, most significant bit first. -/
def ofBits (bs : List Bool) : Nat := bs.foldl (fun a b => 2 * a + b.toNat) 0

/-- The bits of a byte string, most significant bit of each byte first. -/
def byteBits (bytes : List UInt8) : List Bool := bytes.flatMap (fun b => msbBits 8 b.toNat)

/-- The code length of symbol `s`. -/
def lenOf (lens : List Nat) (s : Nat) : Nat := lens.getD s 0

/-- Symbol `t` is used and comes before symbol `s` in the order of the codes. -/
def codedBefore (lens : List Nat) (s t : Nat) : Bool :=
  0 < lenOf lens t && (lenOf lens t < lenOf lens s || (lenOf lens t = lenOf lens s && t < s))

/-- The canonical code of symbol `s`: the codes before it, each as wide as its length leaves. -/
def codeValue (lens : List Nat) (s : Nat) : Nat :=
  ((List.range lens.length).map fun t =>
    if codedBefore lens s t then 2 ^ (lenOf lens s - lenOf lens t) else 0).sum

/-- Symbol `s` has a code: it is used, and its code is not beyond the number of codes of its
length (which happens only if the lengths are not those of a prefix code). -/
def HasCode (lens : List Nat) (s : Nat) : Prop :=
  0 < lenOf lens s ∧ codeValue lens s < 2 ^ lenOf lens s

instance (lens : List Nat) (s : Nat) : Decidable (HasCode lens s) := by
  unfold HasCode; infer_instance

/-- The bits of the code of symbol `s`. -/
def codeBits (lens : List Nat) (s : Nat) : List Bool := msbBits (lenOf lens s) (codeValue lens s)

/-- Reading one symbol: the symbol whose code the bits start with, and the bits after it. -/
def readSymbol (lens : List Nat) (bits : List Bool) : Option (Nat × List Bool) :=
  match (List.range lens.length).find? fun s => HasCode lens s ∧ codeBits lens s <+: bits with
  | some s => some (s, bits.drop (lenOf lens s))
  | none => none

/-- Reading `n` symbols. -/
def readSymbols (lens : List Nat) : Nat → List Bool → Option (List Nat × List Bool)
  | 0, bits => some ([], bits)
  | n + 1, bits => do
    let (s, bits) ← readSymbol lens bits
    let (l, bits) ← readSymbols lens n bits
    pure (s :: l, bits)

/-- The space taken by the codes of at most `k` bits, in units of codes of `k` bits. -/
def usedSpace (lens : List Nat) (k : Nat) : Nat :=
  (lens.map fun l => if 0 < l ∧ l ≤ k then 2 ^ (k - l) else 0).sum

end Verif.Spec.Crn
