import Verif.Proofs.AstcImage
/-!
Proofs: reading ASTC data from a longer buffer. What a function reads inside a buffer it also reads,
with the same value, from any longer buffer that starts with it.
-/
namespace Verif.Proofs.Astc
open Verif Verif.Model Verif.Proofs

/-- Whenever `x` has a value, `y` has the same value. -/
structure Keeps {α : Type} (x y : Out α) : Prop where
  value : ∀ r, x = .ok r → y = .ok r

namespace Keeps

theorem same {α : Type} (x : Out α) : Keeps x x := ⟨fun _ h => h⟩

theorem seq {α β : Type} {x y : Out α} {f g : α → Out β} (h : Keeps x y)
    (hf : ∀ a, Keeps (f a) (g a)) : Keeps (x >>= f) (y >>= g) := by
  refine ⟨fun r e => ?_⟩
  obtain ⟨a, ea, e⟩ := Out.bind_eq_ok.mp e
  rw [h.value a ea, Out.ok_bind]
  exact (hf a).value r e

theorem any {α β : Type} {x : Out α} {f g : α → Out β}
    (hf : ∀ a, Keeps (f a) (g a)) : Keeps (x >>= f) (x >>= g) := seq (same x) hf

theorem cond {α : Type} {c : Prop} [Decidable c] {x x' y y' : Out α} (h1 : Keeps x x')
    (h2 : Keeps y y') : Keeps (if c then x else y) (if c then x' else y') := by
  split
  · exact h1
  · exact h2

theorem loop {σ : Type} {n : Nat} {f g : Nat → σ → Out σ} (h : ∀ i s, Keeps (f i s) (g i s)) (s : σ) :
    Keeps (forRange n f s) (forRange n g s) := by
  induction n with
  | zero => exact same _
  | succ n ih => exact seq ih (h n)

variable {d d' : List UInt8}

theorem idx (h : d <+: d') (i : Nat) : Keeps (Verif.idx d i) (Verif.idx d' i) := by
  obtain ⟨t, rfl⟩ := h
  refine ⟨fun r e => ?_⟩
  rcases Nat.lt_or_ge i d.length with hi | hi
  · rw [idx_ok hi] at e
    rw [idx_ok (by rw [List.length_append]; omega), ← e, List.getElem_append_left hi]
  · rw [idx_panic hi] at e; cases e

theorem byte (h : d <+: d') (i : Nat) : Keeps (Verif.byte d i) (Verif.byte d' i) := by
  refine ⟨fun r e => ?_⟩
  rcases Nat.lt_or_ge i d.length with hi | hi
  · unfold Verif.byte at e ⊢
    rw [(idx h i).value d[i] (idx_ok hi)]
    rw [idx_ok hi] at e
    exact e
  · unfold Verif.byte at e
    rw [idx_panic hi] at e; cases e

theorem slice (h : d <+: d') (a b : Nat) : Keeps (Verif.slice d a b) (Verif.slice d' a b) := by
  obtain ⟨t, rfl⟩ := h
  refine ⟨fun r e => ?_⟩
  unfold Verif.slice at e ⊢
  by_cases hc : a ≤ b ∧ b ≤ d.length
  · rw [if_pos hc] at e
    rw [if_pos ⟨hc.1, by rw [List.length_append]; omega⟩, ← e]
    rw [List.drop_append_of_le_length (by omega), List.take_append_of_le_length (by
      rw [List.length_drop]; omega)]
  · rw [if_neg hc] at e; cases e

theorem suffix {α : Type} (h : d <+: d') (k : Nat) {f g : List UInt8 → Out α}
    (hf : ∀ s s', s <+: s' → Keeps (f s) (g s')) :
    Keeps (sliceFrom d k >>= f) (sliceFrom d' k >>= g) := by
  obtain ⟨t, rfl⟩ := h
  refine ⟨fun r e => ?_⟩
  obtain ⟨s, es, e⟩ := Out.bind_eq_ok.mp e
  unfold sliceFrom at es
  by_cases hc : k ≤ d.length
  · rw [if_pos hc] at es
    cases es
    rw [sliceFrom_ok (by rw [List.length_append]; omega), Out.ok_bind]
    refine (hf _ _ ⟨t, ?_⟩).value r e
    rw [List.drop_append_of_le_length hc]
  · rw [if_neg hc] at es; cases es

end Keeps

variable [Build] {d d' : List UInt8}

theorem keeps_getbits (h : d <+: d') (p n : Nat) : Keeps (getbits d p n) (getbits d' p n) := by
  unfold getbits getbitsRaw
  exact .seq (.any fun _ => .any fun _ => .any fun _ => .seq (.slice h _ _) fun _ => .same _)
    fun _ => .same _

theorem keeps_getbits64 (h : d <+: d') (p : Int) (n : Nat) :
    Keeps (getbits64 d p n) (getbits64 d' p n) := by
  unfold getbits64
  exact .any fun _ => .cond (.same _) (.cond (.seq (.slice h _ _) fun _ => .same _)
    (.cond (.seq (.slice h _ _) fun _ => .same _)
      (.any fun _ => .cond (.seq (.slice h _ _) fun _ => .same _)
        (.seq (.slice h _ _) fun _ => .any fun _ => .seq (.slice h _ _) fun _ => .same _))))

theorem keeps_u16 (h : d <+: d') : Keeps (u8ptrToU16 d) (u8ptrToU16 d') := by
  unfold u8ptrToU16
  exact .seq (.byte h _) fun _ => .seq (.byte h _) fun _ => .same _

theorem keeps_f16 (h : d <+: d') : Keeps (f16ptrToU8 d) (f16ptrToU8 d') := by
  unfold f16ptrToU8
  exact .seq (keeps_u16 h) fun _ => .same _

theorem keeps_word (h : d <+: d') (p : Int) (n : Nat) (r : Bool) :
    Keeps (intseqWord d p n r) (intseqWord d' p n r) := by
  unfold intseqWord
  exact .cond (.any fun _ => .seq (keeps_getbits64 h _ _) fun _ => .same _) (keeps_getbits64 h _ _)

theorem keeps_packed (h : d <+: d') (per extra : Nat) (shifts : List Nat) (table : List (List Nat))
    (index : Nat → Nat → Out Nat) (offset b count : Nat) (r : Bool) (out : List IntSeqData) :
    Keeps (intseqPacked per extra shifts table index d offset b count r out)
      (intseqPacked per extra shifts table index d' offset b count r out) := by
  unfold intseqPacked
  exact .any fun _ => .any fun _ => .any fun _ => .any fun _ =>
    .seq (.loop (fun _ _ => .seq (keeps_word h _ _ _) fun _ => .same _) _) fun _ => .same _

theorem keeps_plain (h : d <+: d') (offset b count : Nat) (r : Bool) (out : List IntSeqData) :
    Keeps (intseqPlain d offset b count r out) (intseqPlain d' offset b count r out) := by
  unfold intseqPlain
  exact .any fun _ => .seq (.loop (fun _ _ => .seq (keeps_getbits h _ _) fun _ => .same _) _)
    fun _ => .same _

theorem keeps_intseq (h : d <+: d') (offset a b count : Nat) (r : Bool) (out : List IntSeqData) :
    Keeps (decodeIntseq d offset a b count r out) (decodeIntseq d' offset a b count r out) := by
  unfold decodeIntseq
  exact .cond (.same _) (.cond (keeps_packed h ..) (.cond (keeps_packed h ..) (keeps_plain h ..)))

theorem keeps_cemOr (h : d <+: d') (cem : List Nat) (i p m : Nat) :
    Keeps (astcCemOr d cem i p m) (astcCemOr d' cem i p m) := by
  unfold astcCemOr
  exact .seq (keeps_getbits h _ _) fun _ => .same _

theorem keeps_cemMulti (h : d <+: d') (n b wb : Nat) :
    Keeps (astcCemMulti d n b wb) (astcCemMulti d' n b wb) := by
  unfold astcCemMulti
  exact .seq (.byte h _) fun _ => .any fun _ =>
    .cond (.any fun _ => .any fun _ => .any fun _ => keeps_cemOr h ..)
      (.cond (.any fun _ => .any fun _ => .any fun _ => .seq (keeps_cemOr h ..) fun _ =>
          .any fun _ => .seq (keeps_cemOr h ..) fun _ => .any fun _ => keeps_cemOr h ..)
        (.cond (.loop (fun _ _ => .any fun _ => keeps_cemOr h ..) _) (.same _)))

theorem keeps_cems (h : d <+: d') (n wb : Nat) : Keeps (astcCems d n wb) (astcCems d' n wb) := by
  unfold astcCems
  exact .cond (.suffix h _ fun _ _ hs => .seq (keeps_u16 hs) fun _ => .same _)
    (.suffix h _ fun _ _ hs => .seq (keeps_u16 hs) fun _ =>
      .cond (.seq (.byte h _) fun _ => .same _) (.seq (keeps_cemMulti h ..) fun _ => .same _))

theorem keeps_params (h : d <+: d') : Keeps (decodeBlockParams d) (decodeBlockParams d') := by
  unfold decodeBlockParams
  exact .seq (.byte h _) fun _ => .seq (.byte h _) fun _ => .any fun _ => .seq (keeps_cems h ..) fun _ =>
    .seq (.cond (.any fun _ => .seq (keeps_getbits h ..) fun _ => .same _) (.same _)) fun _ => .same _

theorem keeps_endpoints (h : d <+: d') (q : AstcParams) :
    Keeps (decodeEndpoints d q) (decodeEndpoints d' q) := by
  unfold decodeEndpoints colourValues
  exact .seq (.any fun _ => .any fun _ => .seq (keeps_intseq h ..) fun _ => .same _) fun _ => .same _

theorem keeps_weights (h : d <+: d') (bw bh : Nat) (q : AstcParams) :
    Keeps (decodeWeights d bw bh q) (decodeWeights d' bw bh q) := by
  unfold decodeWeights weightValues
  exact .seq (.any fun _ => .any fun _ => .seq (keeps_intseq h ..) fun _ => .same _) fun _ => .same _

theorem keeps_partition (h : d <+: d') (bw bh n : Nat) :
    Keeps (selectPartition d bw bh n) (selectPartition d' bw bh n) := by
  unfold selectPartition
  exact .seq (.slice h _ _) fun _ => .same _

theorem keeps_void (h : d <+: d') : Keeps (voidColour d) (voidColour d') := by
  unfold voidColour
  exact .seq (.byte h _) fun _ => .cond
    (.suffix h _ fun _ _ hs => .seq (keeps_f16 hs) fun _ => .suffix h _ fun _ _ hs =>
      .seq (keeps_f16 hs) fun _ => .suffix h _ fun _ _ hs => .seq (keeps_f16 hs) fun _ =>
      .suffix h _ fun _ _ hs => .seq (keeps_f16 hs) fun _ => .same _)
    (.seq (.byte h _) fun _ => .seq (.byte h _) fun _ => .seq (.byte h _) fun _ =>
      .seq (.byte h _) fun _ => .same _)

/-- A block that decodes decodes to the same colours when more data follows it. -/
theorem keeps_block (h : d <+: d') (bw bh : Nat) (out : List UInt32) :
    Keeps (decodeAstcBlock d bw bh out) (decodeAstcBlock d' bw bh out) := by
  unfold decodeAstcBlock decodeAstcTexels
  exact .seq (.byte h _) fun _ => .seq (.byte h _) fun _ =>
    .cond (.seq (keeps_void h) fun _ => .same _)
      (.cond (.same _)
        (.seq (keeps_params h) fun _ => .seq (keeps_endpoints h _) fun _ =>
          .seq (keeps_weights h ..) fun _ =>
          .seq (.cond (keeps_partition h ..) (.same _)) fun _ => .same _))

end Verif.Proofs.Astc
