import Verif.Proofs.PvrtcUsed
import Verif.Props.Pvrtc

/-!
# Properties C73 and C74: the blocks a PVRTC pixel is made of
-/

namespace Verif.Props

open Verif Verif.Proofs Verif.Proofs.Pvrtc Verif.Spec.Pvrtc

/-- **C73** A pixel of a PVRTC image depends only on the four blocks whose centres surround it: if two
textures agree there, the decoded images agree at the pixel. -/
theorem C73_pvrtc_local [Build] (w2 : Bool) (data1 data2 : List UInt8) (w h : Nat)
    (image1 image2 : List UInt32) (hs1 : Spec.SizesOk (bw w2) 4 8 w h image1)
    (hs2 : Spec.SizesOk (bw w2) 4 8 w h image2) (hw : 0 < w) (hh : 0 < h)
    (hd1 : Spec.bytesNeeded (bw w2) 4 8 w h ≤ data1.length)
    (hd2 : Spec.bytesNeeded (bw w2) 4 8 w h ≤ data2.length)
    (hi1 : w * h ≤ image1.length) (hi2 : w * h ≤ image2.length)
    (hx : IsPow2 (Spec.ceilDiv w (bw w2))) (hy : IsPow2 (Spec.ceilDiv h 4)) :
    ∃ out1 out2, pvrtc w2 data1 w h image1 = .ok (.ok (), out1) ∧
      pvrtc w2 data2 w h image2 = .ok (.ok (), out2) ∧
      ∀ x y, x < w → y < h →
        (∀ bx by', Surrounds w2 (Spec.ceilDiv w (bw w2)) (Spec.ceilDiv h 4) x y bx by' →
          block data1 (Spec.ceilDiv w (bw w2)) (Spec.ceilDiv h 4) bx by' =
            block data2 (Spec.ceilDiv w (bw w2)) (Spec.ceilDiv h 4) bx by') →
        out1[y * w + x]? = out2[y * w + x]? := by
  obtain ⟨o1, e1, d1⟩ := C49_pvrtc_exact w2 data1 w h image1 hs1 hw hh hd1 hi1 hx hy
  obtain ⟨o2, e2, d2⟩ := C49_pvrtc_exact w2 data2 w h image2 hs2 hw hh hd2 hi2 hx hy
  refine ⟨o1, o2, e1, e2, fun x y hx hy hb => ?_⟩
  rw [d1.pixel x y hx hy, d2.pixel x y hx hy]
  have hbw := bw_cases w2
  refine congrArg some (texel_local ?_ ?_ hb)
  · unfold Spec.ceilDiv; rcases hbw with e | e <;> rw [e] <;> omega
  · unfold Spec.ceilDiv; omega

/-- **C73** Damage to one stored block: all pixels that its centre does not surround stay the same. -/
theorem C73_pvrtc_one_block [Build] (w2 : Bool) (data1 data2 : List UInt8) (w h : Nat)
    (image : List UInt32) (hs : Spec.SizesOk (bw w2) 4 8 w h image) (hw : 0 < w) (hh : 0 < h)
    (hd1 : Spec.bytesNeeded (bw w2) 4 8 w h ≤ data1.length)
    (hd2 : Spec.bytesNeeded (bw w2) 4 8 w h ≤ data2.length) (hi : w * h ≤ image.length)
    (hx : IsPow2 (Spec.ceilDiv w (bw w2))) (hy : IsPow2 (Spec.ceilDiv h 4)) (bx by' : Nat)
    (hbx : bx < Spec.ceilDiv w (bw w2)) (hby : by' < Spec.ceilDiv h 4)
    (hsame : ∀ k, k < Spec.numBlocks (bw w2) 4 w h →
      k ≠ twiddle (Nat.log2 (min (Spec.ceilDiv w (bw w2)) (Spec.ceilDiv h 4))) bx by' →
      Spec.blockBytes 8 data1 k = Spec.blockBytes 8 data2 k) :
    ∃ out1 out2, pvrtc w2 data1 w h image = .ok (.ok (), out1) ∧
      pvrtc w2 data2 w h image = .ok (.ok (), out2) ∧
      ∀ x y, x < w → y < h →
        ¬ Surrounds w2 (Spec.ceilDiv w (bw w2)) (Spec.ceilDiv h 4) x y bx by' →
        out1[y * w + x]? = out2[y * w + x]? := by
  obtain ⟨o1, o2, e1, e2, hp⟩ := C73_pvrtc_local w2 data1 data2 w h image image hs hs hw hh hd1 hd2
    hi hi hx hy
  refine ⟨o1, o2, e1, e2, fun x y hxw hyh hno => hp x y hxw hyh fun cx cy hc => ?_⟩
  have hbw := bw_cases w2
  have hx1 : x / bw w2 < Spec.ceilDiv w (bw w2) := by
    unfold Spec.ceilDiv; rcases hbw with e | e <;> rw [e] <;> omega
  have hy1 : y / 4 < Spec.ceilDiv h 4 := by unfold Spec.ceilDiv; omega
  have hcx : cx < Spec.ceilDiv w (bw w2) := by
    rcases hc.1 with rfl | rfl
    · exact Nat.mod_lt _ (Nat.zero_lt_of_lt hx1)
    · exact Nat.mod_lt _ (Nat.zero_lt_of_lt hx1)
  have hcy : cy < Spec.ceilDiv h 4 := by
    rcases hc.2 with rfl | rfl
    · exact Nat.mod_lt _ (Nat.zero_lt_of_lt hy1)
    · exact Nat.mod_lt _ (Nat.zero_lt_of_lt hy1)
  obtain ⟨m, a, b, ea, eb, hab, -, hl, -⟩ := grid_exps hx hy
  unfold block
  refine hsame _ ?_ fun he => hno ?_
  · have hn : Spec.ceilDiv w (bw w2) * Spec.ceilDiv h 4 < 2 ^ 61 := by
      have := hs.bytes_fit
      unfold Spec.bytesNeeded Spec.numBlocks at this
      omega
    exact (morton_grid hx hy hn hcx hcy).2
  · rw [hl] at he
    obtain ⟨rfl, rfl⟩ := twiddle_inj m cx cy bx by' a b (by omega) (by omega) (by omega) (by omega) hab he
    exact hc

/-- A texture of 4×4 blocks of which block (3, 3), the last one, is damaged; its centre does not
surround pixel (5, 6). -/
example : (∀ k, k < Spec.numBlocks (bw false) 4 16 16 →
      k ≠ twiddle (Nat.log2 (min (Spec.ceilDiv 16 (bw false)) (Spec.ceilDiv 16 4))) 3 3 →
      Spec.blockBytes 8 (List.replicate 128 0x5a) k =
        Spec.blockBytes 8 (List.replicate 120 0x5a ++ List.replicate 8 0xa5) k) ∧
    ¬ Surrounds false 4 4 5 6 3 3 ∧ Surrounds false 4 4 0 15 3 3 := by
  refine ⟨by decide, ?_, ?_⟩ <;> unfold Surrounds <;> decide

/-- **C74** PVRTC textures wrap around: if the blocks of a texture are moved cyclically, the pixels of
the decoded image move with them. -/
theorem C74_pvrtc_wraps [Build] (w2 : Bool) (data1 data2 : List UInt8) (nx ny sx sy : Nat)
    (image1 image2 : List UInt32) (hs1 : Spec.SizesOk (bw w2) 4 8 (bw w2 * nx) (4 * ny) image1)
    (hs2 : Spec.SizesOk (bw w2) 4 8 (bw w2 * nx) (4 * ny) image2)
    (hd1 : nx * ny * 8 ≤ data1.length) (hd2 : nx * ny * 8 ≤ data2.length)
    (hi1 : bw w2 * nx * (4 * ny) ≤ image1.length) (hi2 : bw w2 * nx * (4 * ny) ≤ image2.length)
    (hx : IsPow2 nx) (hy : IsPow2 ny) (hm : Moved nx ny sx sy data1 data2) :
    ∃ out1 out2, pvrtc w2 data1 (bw w2 * nx) (4 * ny) image1 = .ok (.ok (), out1) ∧
      pvrtc w2 data2 (bw w2 * nx) (4 * ny) image2 = .ok (.ok (), out2) ∧
      ∀ x y, x < bw w2 * nx → y < 4 * ny →
        out2[(y + 4 * sy) % (4 * ny) * (bw w2 * nx) + (x + bw w2 * sx) % (bw w2 * nx)]? =
          out1[y * (bw w2 * nx) + x]? := by
  have hbw := bw_cases w2
  have cx : Spec.ceilDiv (bw w2 * nx) (bw w2) = nx := by
    unfold Spec.ceilDiv; rcases hbw with e | e <;> rw [e] <;> omega
  have cy : Spec.ceilDiv (4 * ny) 4 = ny := by unfold Spec.ceilDiv; omega
  have hnx : 0 < nx := by obtain ⟨p, rfl⟩ := hx; exact Nat.two_pow_pos p
  have hny : 0 < ny := by obtain ⟨p, rfl⟩ := hy; exact Nat.two_pow_pos p
  have hW : 0 < bw w2 * nx := Nat.mul_pos (by omega) hnx
  have hH : 0 < 4 * ny := by omega
  have hb : Spec.bytesNeeded (bw w2) 4 8 (bw w2 * nx) (4 * ny) = nx * ny * 8 := by
    unfold Spec.bytesNeeded Spec.numBlocks
    rw [cx, cy]
  obtain ⟨o1, e1, d1⟩ := C49_pvrtc_exact w2 data1 _ _ image1 hs1 hW hH (by omega) hi1
    (by rw [cx]; exact hx) (by rw [cy]; exact hy)
  obtain ⟨o2, e2, d2⟩ := C49_pvrtc_exact w2 data2 _ _ image2 hs2 hW hH (by omega) hi2
    (by rw [cx]; exact hx) (by rw [cy]; exact hy)
  refine ⟨o1, o2, e1, e2, fun x y hxw hyh => ?_⟩
  have p1 := d1.pixel x y hxw hyh
  have p2 := d2.pixel ((x + bw w2 * sx) % (bw w2 * nx)) ((y + 4 * sy) % (4 * ny)) (Nat.mod_lt _ hW)
    (Nat.mod_lt _ hH)
  rw [cx, cy] at p1 p2
  rw [p1, p2]
  refine congrArg some (texel_move hm ?_ (by omega))
  rcases hbw with e | e <;> rw [e] at hxw ⊢ <;> omega

/-- Four different blocks in a row of 4×1, moved by one. -/
example : Moved 4 1 1 0
    ([1, 2, 3, 4].flatMap fun k : Nat => List.replicate 8 (UInt8.ofNat k))
    ([4, 1, 2, 3].flatMap fun k : Nat => List.replicate 8 (UInt8.ofNat k)) := by
  unfold Moved
  intro bx by' h1 h2
  have : by' = 0 := by omega
  subst this
  have : bx = 0 ∨ bx = 1 ∨ bx = 2 ∨ bx = 3 := by omega
  rcases this with rfl | rfl | rfl | rfl <;> decide

end Verif.Props
