import Verif.Spec.Cut
import Verif.Proofs.Store

/-! # Cutting rectangles of blocks out of a texture -/

namespace Verif.Proofs.Cut

open Verif.Spec Verif.Proofs Verif.Proofs.Store

theorem flatMap_same {n : Nat} {g g' : Nat → List UInt8} (h : ∀ k, k < n → g k = g' k) :
    (List.range n).flatMap g = (List.range n).flatMap g' := by
  rw [List.flatMap_def, List.flatMap_def]
  exact congrArg List.flatten (List.map_congr_left fun k hk => h k (List.mem_range.1 hk))

theorem blocks_bounded {raw n : Nat} {g : Nat → List UInt8} (hg : ∀ k, k < n → (g k).length = raw) :
    ((List.range n).flatMap g).length = n * raw ∧
      ∀ k, k < n → blockBytes raw ((List.range n).flatMap g) k = g k := by
  have e : (List.range n).flatMap g
      = (List.range n).flatMap fun k => if k < n then g k else List.replicate raw 0 :=
    flatMap_same fun k hk => (if_pos hk).symm
  have hg' : ∀ k, (if k < n then g k else List.replicate raw 0).length = raw := fun k => by
    split
    · exact hg k ‹_›
    · exact List.length_replicate
  rw [e]
  exact ⟨blocks_length hg', fun k hk => (blocks_get hg' hk).trans (if_pos hk)⟩

theorem block_full {raw n k : Nat} {data : List UInt8} (h : n * raw ≤ data.length) (hk : k < n) :
    (blockBytes raw data k).length = raw := by
  have := Nat.mul_le_mul_right raw (show k + 1 ≤ n from hk)
  rw [Nat.succ_mul] at this
  unfold blockBytes
  rw [List.length_take, List.length_drop]
  omega

theorem ceil_lt {b o w w' i : Nat} (hb : 0 < b) (h : b * o + w' ≤ w) (hi : i < ceilDiv w' b) :
    o + i < ceilDiv w b := by
  unfold ceilDiv at *
  have h1 : i + 1 ≤ (w' + b - 1) / b := hi
  rw [Nat.le_div_iff_mul_le hb] at h1
  show o + i + 1 ≤ _
  rw [Nat.le_div_iff_mul_le hb]
  have : (o + i + 1) * b = b * o + (i + 1) * b := by
    rw [Nat.add_assoc, Nat.add_mul, Nat.mul_comm o b]
  omega

theorem div_lt_ceil {b w x : Nat} (hb : 0 < b) (hx : x < w) : x / b < ceilDiv w b := by
  unfold ceilDiv
  show x / b + 1 ≤ _
  rw [Nat.le_div_iff_mul_le hb, Nat.succ_mul]
  have := Nat.div_mul_le_self x b
  omega

theorem idx_lt {cols rows x y : Nat} (hx : x < cols) (hy : y < rows) : y * cols + x < cols * rows := by
  have := Nat.mul_le_mul_left cols (show y + 1 ≤ rows from hy)
  rw [Nat.mul_add, Nat.mul_one, Nat.mul_comm cols y] at this
  omega

/-- The blocks of the part. -/
theorem cut_blocks {bw bh raw w h w' h' ox oy : Nat} {data : List UInt8} (hbw : 0 < bw) (hbh : 0 < bh)
    (hd : bytesNeeded bw bh raw w h ≤ data.length) (hw : bw * ox + w' ≤ w) (hh : bh * oy + h' ≤ h) :
    (cutBlocks raw (ceilDiv w bw) data ox oy (ceilDiv w' bw) (ceilDiv h' bh)).length = bytesNeeded bw bh raw w' h' ∧
    (∀ bx by_, bx < ceilDiv w' bw → by_ < ceilDiv h' bh →
      (oy + by_) * ceilDiv w bw + (ox + bx) < numBlocks bw bh w h ∧
      blockBytes raw (cutBlocks raw (ceilDiv w bw) data ox oy (ceilDiv w' bw) (ceilDiv h' bh))
        (by_ * ceilDiv w' bw + bx) = blockBytes raw data ((oy + by_) * ceilDiv w bw + (ox + bx))) := by
  have inside : ∀ bx by_, bx < ceilDiv w' bw → by_ < ceilDiv h' bh →
      (oy + by_) * ceilDiv w bw + (ox + bx) < numBlocks bw bh w h := fun bx by_ h1 h2 =>
    idx_lt (ceil_lt hbw hw h1) (ceil_lt hbh hh h2)
  have split : ∀ k, k < ceilDiv w' bw * ceilDiv h' bh → k % ceilDiv w' bw < ceilDiv w' bw ∧
      k / ceilDiv w' bw < ceilDiv h' bh := fun k hk => by
    have hpos : 0 < ceilDiv w' bw := Nat.pos_of_ne_zero fun e => by rw [e, Nat.zero_mul] at hk; omega
    exact ⟨Nat.mod_lt _ hpos, Nat.div_lt_of_lt_mul hk⟩
  obtain ⟨h1, h2⟩ := blocks_bounded (raw := raw) (n := ceilDiv w' bw * ceilDiv h' bh)
    (g := fun k => blockBytes raw data ((oy + k / ceilDiv w' bw) * ceilDiv w bw + (ox + k % ceilDiv w' bw)))
    (fun k hk => block_full hd (inside _ _ (split k hk).1 (split k hk).2))
  refine ⟨h1, fun bx by_ hx hy => ⟨inside _ _ hx hy, (h2 _ (idx_lt hx hy)).trans ?_⟩⟩
  rw [Nat.add_comm (by_ * _), Nat.add_mul_mod_self_right, Nat.mod_eq_of_lt hx,
    Nat.add_mul_div_right _ _ (Nat.lt_of_le_of_lt (Nat.zero_le _) hx), Nat.div_eq_of_lt hx, Nat.zero_add]

theorem ceil_mono {b o w w' : Nat} (hb : 0 < b) (h : b * o + w' ≤ w) : ceilDiv w' b ≤ ceilDiv w b :=
  Nat.div_le_div_right (by omega)

/-- The picture of the part. -/
theorem cut_picture {dec : List UInt8 → Nat → Nat → List UInt32 → Out (Except String Unit × List UInt32)}
    {bw bh raw : Nat} {Good : List UInt8 → Prop} {texel : List UInt8 → Nat → UInt32}
    (D : DecodesLegal dec bw bh raw Good texel) {data : List UInt8} {w h w' h' ox oy : Nat}
    {image image' out : List UInt32} (hbw : 0 < bw) (hbh : 0 < bh)
    (hs : SizesOk bw bh raw w h image) (hd : bytesNeeded bw bh raw w h ≤ data.length)
    (hg : ∀ bx by_, bx < ceilDiv w' bw → by_ < ceilDiv h' bh →
      Good (blockBytes raw data ((oy + by_) * ceilDiv w bw + (ox + bx))))
    (hout : IsDecoded bw bh raw texel data w h image out) (hw : bw * ox + w' ≤ w) (hh : bh * oy + h' ≤ h)
    (hi : image'.length < 2 ^ 61) (hi' : w' * h' ≤ image'.length) :
    ∃ out', dec (cutBlocks raw (ceilDiv w bw) data ox oy (ceilDiv w' bw) (ceilDiv h' bh)) w' h' image'
        = .ok (.ok (), out') ∧ IsPart w out (bw * ox) (bh * oy) w' h' out' := by
  obtain ⟨hlen, hblk⟩ := cut_blocks hbw hbh hd hw hh
  have hpix : w' * h' ≤ w * h := Nat.mul_le_mul (by omega) (by omega)
  have hbytes : bytesNeeded bw bh raw w' h' ≤ bytesNeeded bw bh raw w h :=
    Nat.mul_le_mul_right _ (Nat.mul_le_mul (ceil_mono hbw hw) (ceil_mono hbh hh))
  have hsb := hs.bytes_fit
  have hsp := hs.pixels_fit
  obtain ⟨out', e, d⟩ := D.success _ w' h' image' ⟨hi, by omega, by omega⟩ (Nat.le_of_eq hlen.symm) hi'
    (fun k hk => by
      have hpos : 0 < ceilDiv w' bw := Nat.pos_of_ne_zero fun e => by
        unfold numBlocks at hk; rw [e, Nat.zero_mul] at hk; omega
      have h1 : k % ceilDiv w' bw < ceilDiv w' bw := Nat.mod_lt _ hpos
      have h2 : k / ceilDiv w' bw < ceilDiv h' bh := Nat.div_lt_of_lt_mul hk
      have e := (hblk _ _ h1 h2).2
      rw [Nat.mul_comm (k / _), Nat.div_add_mod] at e
      rw [e]
      exact hg _ _ h1 h2)
  refine ⟨out', e, fun x y hx hy => ?_⟩
  rw [d.pixel x y hx hy, hout.pixel (bw * ox + x) (bh * oy + y) (by omega) (by omega)]
  unfold pixelAt
  rw [(hblk _ _ (div_lt_ceil hbw hx) (div_lt_ceil hbh hy)).2, Nat.mul_add_div hbw, Nat.mul_add_div hbh,
    Nat.mul_add_mod, Nat.mul_add_mod]

end Verif.Proofs.Cut
