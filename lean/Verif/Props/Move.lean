import Verif.Proofs.Move
import Verif.Proofs.MoveEtc

/-!
# Property C78: textures can be flipped, mirrored and turned without encoding them again
-/

namespace Verif.Props

open Verif Verif.Spec Verif.Proofs

variable [Build]

/-- **C78** Upside down: the rows of blocks are reversed, and each block is flipped. -/
theorem C78_flip (fmt : Format) (data data' : List UInt8) (w n : Nat) (image image' out out' : List UInt32)
    (hs : fmt.SizesOk w (4 * n) image) (hs' : fmt.SizesOk w (4 * n) image')
    (hok : decoder fmt data w (4 * n) image = .ok (.ok (), out))
    (hok' : decoder fmt data' w (4 * n) image' = .ok (.ok (), out'))
    (hb : ∀ bx, bx < ceilDiv w 4 → ∀ by_, by_ < n →
      fmt.BlockMoved flip4 (blockBytes fmt.blockSize data (by_ * ceilDiv w 4 + bx))
        (blockBytes fmt.blockSize data' ((n - 1 - by_) * ceilDiv w 4 + bx)))
    (x y : Nat) (hx : x < w) (hy : y < 4 * n) :
    out'[(4 * n - 1 - y) * w + x]? = out[y * w + x]? := by
  have hbx : x / 4 < ceilDiv w 4 := by unfold ceilDiv; omega
  have hby : y / 4 < n := by omega
  have m := hb (x / 4) hbx (y / 4) hby
  have hl := moved_not_bc6 m
  obtain ⟨_, _, d⟩ := ok_inv hs (legal_of hl _ _ _) hok
  obtain ⟨_, _, d'⟩ := ok_inv hs' (legal_of hl _ _ _) hok'
  rw [d.pixel x y hx hy, d'.pixel x _ hx (by omega)]
  unfold Spec.pixelAt
  rw [show (4 * n - 1 - y) / 4 = n - 1 - y / 4 by omega,
    show (4 * n - 1 - y) % 4 * 4 + x % 4 = flip4 (y % 4 * 4 + x % 4) by unfold flip4; omega,
    texel_moved m (by unfold flip4; omega),
    show flip4 (flip4 (y % 4 * 4 + x % 4)) = y % 4 * 4 + x % 4 by unfold flip4; omega]

/-- **C78** Left to right: the blocks of each row are reversed, and each block is mirrored. -/
theorem C78_mirror (fmt : Format) (data data' : List UInt8) (n h : Nat) (image image' out out' : List UInt32)
    (hs : fmt.SizesOk (4 * n) h image) (hs' : fmt.SizesOk (4 * n) h image')
    (hok : decoder fmt data (4 * n) h image = .ok (.ok (), out))
    (hok' : decoder fmt data' (4 * n) h image' = .ok (.ok (), out'))
    (hb : ∀ bx, bx < n → ∀ by_, by_ < ceilDiv h 4 →
      fmt.BlockMoved mirror4 (blockBytes fmt.blockSize data (by_ * n + bx))
        (blockBytes fmt.blockSize data' (by_ * n + (n - 1 - bx))))
    (x y : Nat) (hx : x < 4 * n) (hy : y < h) :
    out'[y * (4 * n) + (4 * n - 1 - x)]? = out[y * (4 * n) + x]? := by
  have hby : y / 4 < ceilDiv h 4 := by unfold ceilDiv; omega
  have m := hb (x / 4) (by omega) (y / 4) hby
  have hl := moved_not_bc6 m
  obtain ⟨_, _, d⟩ := ok_inv hs (legal_of hl _ _ _) hok
  obtain ⟨_, _, d'⟩ := ok_inv hs' (legal_of hl _ _ _) hok'
  rw [d.pixel x y hx hy, d'.pixel _ y (by omega) hy]
  unfold Spec.pixelAt
  rw [show ceilDiv (4 * n) 4 = n by unfold ceilDiv; omega,
    show (4 * n - 1 - x) / 4 = n - 1 - x / 4 by omega,
    show y % 4 * 4 + (4 * n - 1 - x) % 4 = mirror4 (y % 4 * 4 + x % 4) by unfold mirror4; omega,
    texel_moved m (by unfold mirror4; omega),
    show mirror4 (mirror4 (y % 4 * 4 + x % 4)) = y % 4 * 4 + x % 4 by unfold mirror4; omega]

/-- **C78** Rows exchanged with columns, for the blocks and within each block; for all sizes, also those
with partial blocks. -/
theorem C78_transpose (fmt : Format) (data data' : List UInt8) (w h : Nat)
    (image image' out out' : List UInt32)
    (hs : fmt.SizesOk w h image) (hs' : fmt.SizesOk h w image')
    (hok : decoder fmt data w h image = .ok (.ok (), out))
    (hok' : decoder fmt data' h w image' = .ok (.ok (), out'))
    (hb : ∀ bx, bx < ceilDiv w 4 → ∀ by_, by_ < ceilDiv h 4 →
      fmt.BlockMoved transpose4 (blockBytes fmt.blockSize data (by_ * ceilDiv w 4 + bx))
        (blockBytes fmt.blockSize data' (bx * ceilDiv h 4 + by_)))
    (x y : Nat) (hx : x < w) (hy : y < h) :
    out'[x * h + y]? = out[y * w + x]? := by
  have hbx : x / 4 < ceilDiv w 4 := by unfold ceilDiv; omega
  have hby : y / 4 < ceilDiv h 4 := by unfold ceilDiv; omega
  have m := hb (x / 4) hbx (y / 4) hby
  have hl := moved_not_bc6 m
  obtain ⟨_, _, d⟩ := ok_inv hs (legal_of hl _ _ _) hok
  obtain ⟨_, _, d'⟩ := ok_inv hs' (legal_of hl _ _ _) hok'
  rw [d.pixel x y hx hy, d'.pixel y x hy hx]
  unfold Spec.pixelAt
  rw [show x % 4 * 4 + y % 4 = transpose4 (y % 4 * 4 + x % 4) by unfold transpose4; omega,
    texel_moved m (by unfold transpose4; omega),
    show transpose4 (transpose4 (y % 4 * 4 + x % 4)) = y % 4 * 4 + x % 4 by unfold transpose4; omega]

/-- **C78** Rows exchanged with columns in ETC textures: the indices of each block are transposed, and the flip
bit changes or, in planar blocks, the two directions are exchanged. -/
theorem C78_transpose_etc (fmt : Format) (data data' : List UInt8) (w h : Nat)
    (image image' out out' : List UInt32)
    (hs : fmt.SizesOk w h image) (hs' : fmt.SizesOk h w image')
    (hok : decoder fmt data w h image = .ok (.ok (), out))
    (hok' : decoder fmt data' h w image' = .ok (.ok (), out'))
    (hb : ∀ bx, bx < ceilDiv w 4 → ∀ by_, by_ < ceilDiv h 4 →
      fmt.EtcTransposed (blockBytes fmt.blockSize data (by_ * ceilDiv w 4 + bx))
        (blockBytes fmt.blockSize data' (bx * ceilDiv h 4 + by_)))
    (x y : Nat) (hx : x < w) (hy : y < h) :
    out'[x * h + y]? = out[y * w + x]? := by
  have hbx : x / 4 < ceilDiv w 4 := by unfold ceilDiv; omega
  have hby : y / 4 < ceilDiv h 4 := by unfold ceilDiv; omega
  have m := hb (x / 4) hbx (y / 4) hby
  have hl := MoveEtc.not_bc6 m
  obtain ⟨_, _, d⟩ := ok_inv hs (legal_of hl _ _ _) hok
  obtain ⟨_, _, d'⟩ := ok_inv hs' (legal_of hl _ _ _) hok'
  rw [d.pixel x y hx hy, d'.pixel y x hy hx]
  unfold Spec.pixelAt
  rw [MoveEtc.texel m (by omega),
    show transpose4 (x % 4 * 4 + y % 4) = y % 4 * 4 + x % 4 by unfold transpose4; omega]

/-- Flipping a BC1 block: its last four bytes in reverse order. -/
def flipBc1 (b : List UInt8) : List UInt8 := b.take 4 ++ (b.drop 4).reverse

omit [Build] in
/-- **C78** For BC1 a flip only moves bytes. -/
theorem C78_flip_bc1_bytes (b0 b1 b2 b3 b4 b5 b6 b7 : UInt8) :
    Format.bc1.BlockMoved flip4 [b0, b1, b2, b3, b4, b5, b6, b7]
      (flipBc1 [b0, b1, b2, b3, b4, b5, b6, b7]) := by
  refine ⟨?_, fun i hi => ?_⟩
  · have h0 := b0.toNat_lt; have h1 := b1.toNat_lt; have h2 := b2.toNat_lt; have h3 := b3.toNat_lt
    simp [flipBc1, field, leNat]; omega
  · have e : (flipBc1 [b0, b1, b2, b3, b4, b5, b6, b7])[4 + i / 4]?
        = [b0, b1, b2, b3, b4, b5, b6, b7][4 + (3 - i / 4)]? := by
      rcases (by omega : i / 4 = 0 ∨ i / 4 = 1 ∨ i / 4 = 2 ∨ i / 4 = 3) with e | e | e | e <;>
        rw [e] <;> rfl
    have hlt : 4 + (3 - i / 4) < [b0, b1, b2, b3, b4, b5, b6, b7].length := by
      show _ < 8; omega
    have e2 := List.getElem?_eq_getElem hlt
    rw [show 32 + 2 * i = 8 * (4 + i / 4) + 2 * (i % 4) by omega,
      show 32 + 2 * flip4 i = 8 * (4 + (3 - i / 4)) + 2 * (i % 4) by unfold flip4; omega,
      field_byte (e.trans e2) (by omega), field_byte e2 (by omega)]

/-- The hypotheses of `C78_flip` for a texture of one block and its flipped block: the index of the first
row is 0, 1, 2, 3 from left to right in one and in the last row of the other. -/
example : let a : List UInt8 := [0xff, 0xff, 0x1f, 0, 0xe4, 0, 0, 0]
    Format.bc1.SizesOk 4 (4 * 1) (List.replicate 16 0) ∧
    (∃ out, decoder .bc1 a 4 (4 * 1) (List.replicate 16 0) = .ok (.ok (), out)) ∧
    (∃ out, decoder .bc1 (flipBc1 a) 4 (4 * 1) (List.replicate 16 0) = .ok (.ok (), out)) ∧
    (∀ bx, bx < ceilDiv 4 4 → ∀ by_, by_ < 1 →
      Format.bc1.BlockMoved flip4 (blockBytes 8 a (by_ * ceilDiv 4 4 + bx))
        (blockBytes 8 (flipBc1 a) ((1 - 1 - by_) * ceilDiv 4 4 + bx))) := by
  intro a
  have hs : Format.bc1.SizesOk 4 (4 * 1) (List.replicate 16 0) := ⟨by decide, by decide, by decide⟩
  obtain ⟨o, e, _⟩ := (decoder_spec .bc1).success a 4 (4 * 1) (List.replicate 16 0) hs (by decide)
    (by decide) (fun _ _ => trivial)
  obtain ⟨o', e', _⟩ := (decoder_spec .bc1).success (flipBc1 a) 4 (4 * 1) (List.replicate 16 0) hs
    (by decide) (by decide) (fun _ _ => trivial)
  refine ⟨hs, ⟨o, e⟩, ⟨o', e'⟩, fun bx h by_ h' => ?_⟩
  have h1 : bx = 0 := by simp [ceilDiv] at h; omega
  have h2 : by_ = 0 := by omega
  subst h1 h2
  exact C78_flip_bc1_bytes 0xff 0xff 0x1f 0 0xe4 0 0 0

/-- A mirrored BC3 block and a transposed BC5 block. -/
example : Format.bc3.BlockMoved mirror4
      [200, 10, 136, 198, 250, 0, 0, 0, 0xff, 0xff, 0x1f, 0, 228, 27, 0, 255]
      [200, 10, 83, 112, 151, 0, 0, 0, 0xff, 0xff, 0x1f, 0, 27, 228, 0, 255] ∧
    Format.bc5.BlockMoved transpose4
      [200, 10, 1, 0, 0, 0, 0, 0, 7, 8, 0, 0x10, 0, 0, 0, 0]
      [200, 10, 1, 0, 0, 0, 0, 0, 7, 8, 8, 0, 0, 0, 0, 0] := by
  unfold Format.BlockMoved ValuesMoved ColoursMoved FieldsMoved
  decide +kernel

/- Transposed ETC blocks: an ETC1 block in individual mode, a T block and a planar block of ETC2. -/
example : Format.EtcTransposed .etc1 [0x12, 0x34, 0x56, 0x04, 0, 0, 0, 2] [0x12, 0x34, 0x56, 0x05, 0, 0, 0, 16] ∧
    Format.EtcTransposed .etc2rgb [0xfb, 0, 0, 0x06, 0, 0, 0, 2] [0xfb, 0, 0, 0x06, 0, 0, 0, 16] ∧
    Format.EtcTransposed .etc2rgba1 [0x00, 0x00, 0xfb, 0x03, 0, 0, 0, 5] [0x00, 0x00, 0xfb, 0x02, 0, 0x28, 0x20, 0] := by
  have ht : Etc.mode (Etc.diffBit [0xfb, 0, 0, 0x06, 0, 0, 0, 2]) [0xfb, 0, 0, 0x06, 0, 0, 0, 2] = .t := by
    decide +kernel
  have hp : Etc.mode true [0x00, 0x00, 0xfb, 0x03, 0, 0, 0, 5] = .planar := by decide +kernel
  refine ⟨?_, ?_, ?_⟩
  · show Etc.PlainTransposed _ _
    unfold Etc.PlainTransposed Etc.IndicesTransposed
    decide +kernel
  · simp only [Format.EtcTransposed, Etc.Etc2Transposed, ht]
    unfold Etc.PaintTransposed Etc.IndicesTransposed
    decide +kernel
  · simp only [Format.EtcTransposed, Etc.Etc2A1Transposed, hp]
    unfold Etc.PlanarTransposed
    decide +kernel

end Verif.Props
