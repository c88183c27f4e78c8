import Verif.Proofs.Bc6Mode15
import Verif.Proofs.ImageLaws
import Verif.Proofs.AstcGrow
import Verif.Proofs.Pvrtc
/-!
Proofs: the block formats on arbitrary blocks (BC6H blocks of mode 15 included), and PVRTC images with
bytes after the last block.
-/
namespace Verif.Proofs
open Verif Verif.Model

/-- In every build, a format either decodes a block, to colours that depend on its bytes only, or panics
on every image that contains it. -/
structure AnyBlocks (dec : List UInt8 → Nat → Nat → List UInt32 → Out (Except String Unit × List UInt32))
    (raw : Nat) (Good : List UInt8 → Prop) (texel : List UInt8 → Nat → UInt32) : Prop where
  decodes : Spec.DecodesLegal dec 4 4 raw Good texel
  panics : ∀ data w h image, Spec.SizesOk 4 4 raw w h image →
    Spec.bytesNeeded 4 4 raw w h ≤ data.length → w * h ≤ image.length →
    ∀ k, k < Spec.numBlocks 4 4 w h → ¬ Good (Spec.blockBytes raw data k) →
    dec data w h image = .panic

theorem anyBlocks_total [Build] {fmt : Spec.Format} (h : ∀ blk, fmt.Legal blk) :
    ∃ Good texel, AnyBlocks (decoder fmt) fmt.blockSize Good texel :=
  ⟨_, _, decoder_spec fmt, fun _ _ _ _ _ _ _ _ _ hn => absurd (h _) hn⟩

theorem anyBlocks_bc6 [inst : Build] (signed : Bool) :
    ∃ Good texel, AnyBlocks (blockDecoder 4 4 16 (decodeBc6Block signed)) 16 Good texel := by
  obtain ⟨ck⟩ := inst
  cases ck
  · letI := Build.release
    exact ⟨_, _, decodes4 (by omega) (bc6_contract_release signed),
      fun _ _ _ _ _ _ _ _ _ hn => absurd trivial hn⟩
  · letI := Build.debug
    exact ⟨_, _, decodes4 (by omega) (bc6_contract signed), fun data w h image hs hd hi k hk hn =>
      blockDecoder_panic_of (Bad := fun blk => Spec.Bc6.modeOf blk = 15) (by omega) (by omega) (by omega)
        (fun d buf hd hb => bc6_mode15_panic hd signed hb buf) hs hd hi hk
        (Classical.byContradiction fun h => hn h)⟩

theorem decoder_any [Build] (fmt : Spec.Format) :
    ∃ Good texel, AnyBlocks (decoder fmt) fmt.blockSize Good texel := by
  cases fmt
  case bc6s => exact anyBlocks_bc6 true
  case bc6u => exact anyBlocks_bc6 false
  all_goals exact anyBlocks_total (fun _ => trivial)

/-- What a success says. -/
theorem AnyBlocks.ok_inv {dec : List UInt8 → Nat → Nat → List UInt32 → Out (Except String Unit × List UInt32)}
    {raw : Nat} {Good : List UInt8 → Prop} {texel : List UInt8 → Nat → UInt32}
    (A : AnyBlocks dec raw Good texel) {data : List UInt8} {w h : Nat} {image image' : List UInt32}
    (hs : Spec.SizesOk 4 4 raw w h image) (hok : dec data w h image = .ok (.ok (), image')) :
    Spec.bytesNeeded 4 4 raw w h ≤ data.length ∧ w * h ≤ image.length ∧
      (∀ k, k < Spec.numBlocks 4 4 w h → Good (Spec.blockBytes raw data k)) ∧
      Spec.IsDecoded 4 4 raw texel data w h image image' := by
  rcases Nat.lt_or_ge data.length (Spec.bytesNeeded 4 4 raw w h) with hd | hd
  · rw [A.decodes.not_enough_data _ _ _ _ hs hd] at hok; cases hok
  rcases Nat.lt_or_ge image.length (w * h) with hi | hi
  · rw [A.decodes.image_too_small _ _ _ _ hs hd hi] at hok; cases hok
  have hg : ∀ k, k < Spec.numBlocks 4 4 w h → Good (Spec.blockBytes raw data k) := fun k hk =>
    Classical.byContradiction fun hn => by
      rw [A.panics _ _ _ _ hs hd hi k hk hn] at hok; cases hok
  obtain ⟨o, e, d⟩ := A.decodes.success _ _ _ _ hs hd hi hg
  rw [hok] at e
  cases e
  exact ⟨hd, hi, hg, d⟩

/-! ## PVRTC -/

open Astc (Keeps)

theorem keeps_pvColors {d d' : List UInt8} (h : d <+: d') (info : PvInfo) :
    Keeps (getTexelColors d info) (getTexelColors d' info) := by
  unfold getTexelColors
  exact .seq (.slice h _ _) fun _ => .seq (.slice h _ _) fun _ => .same _

theorem keeps_pvWeights4 [Build] {d d' : List UInt8} (h : d <+: d') (info : PvInfo) :
    Keeps (getTexelWeights4 d info) (getTexelWeights4 d' info) := by
  unfold getTexelWeights4
  exact .seq (.byte h _) fun _ => .seq (.slice h _ _) fun _ => .same _

theorem keeps_pvWeights2 [Build] {d d' : List UInt8} (h : d <+: d') (info : PvInfo) :
    Keeps (getTexelWeights2 d info) (getTexelWeights2 d' info) := by
  unfold getTexelWeights2
  exact .seq (.byte h _) fun _ => .seq (.slice h _ _) fun _ => .cond
    (.seq (.byte h _) fun _ => .seq (.cond (.byte h _) (.same _)) fun _ => .same _) (.same _)

theorem keeps_pvInfos [Build] {d d' : List UInt8} (h : d <+: d') (is2 : Bool) (n : Nat) :
    Keeps (pvInfos is2 d n) (pvInfos is2 d' n) := by
  unfold pvInfos
  refine .seq (.loop (fun _ s => ?_) _) fun _ => .same _
  obtain ⟨off, infos⟩ := s
  exact .suffix h _ fun _ _ hs => .seq (keeps_pvColors hs _) fun _ =>
    .suffix h _ fun _ _ hs => .seq (.cond (keeps_pvWeights2 hs _) (keeps_pvWeights4 hs _)) fun _ => .same _

/-- Bytes after the last block do not change a success of PVRTC. -/
theorem decodePvrtc_grow [Build] {d d' : List UInt8} (hp : d <+: d') {w h : Nat} {image out : List UInt32}
    {is2 : Bool} (hok : decodePvrtc d w h image is2 = .ok (.ok (), out)) :
    decodePvrtc d' w h image is2 = .ok (.ok (), out) := by
  unfold decodePvrtc at hok ⊢
  dsimp only at hok ⊢
  obtain ⟨nbx, e, hok⟩ := Out.bind_eq_ok.mp hok
  rw [e, Out.ok_bind]
  obtain ⟨nby, e, hok⟩ := Out.bind_eq_ok.mp hok
  rw [e, Out.ok_bind]
  obtain ⟨n, e, hok⟩ := Out.bind_eq_ok.mp hok
  rw [e, Out.ok_bind]
  obtain ⟨need, e, hok⟩ := Out.bind_eq_ok.mp hok
  rw [e, Out.ok_bind]
  have hlen := hp.length_le
  by_cases hd : d.length < need
  · rw [if_pos hd] at hok; cases hok
  rw [if_neg hd] at hok
  rw [if_neg (by omega)]
  refine Keeps.value ?_ _ hok
  refine .any fun _ => .cond (.same _) (.any fun _ => .any fun _ => .cond (.same _)
    (.seq (keeps_pvInfos hp _ _) fun _ => .seq (.loop (fun _ _ => .any fun _ => .loop (fun _ s => ?_) _) _)
      fun _ => .same _))
  obtain ⟨loc, buffer, image⟩ := s
  exact .any fun _ => .any fun _ => .any fun _ => .any fun _ => .suffix hp _ fun _ _ _ => .same _

end Verif.Proofs
