import Verif.Proofs.FlipEtc
import Verif.Proofs.FewColours
import Verif.Props.Move

/-!
# Property C78 for ETC textures: upside down and left to right
-/

namespace Verif.Props

open Verif Verif.Spec Verif.Proofs

variable [Build]

/-- **C78** ETC textures upside down: the rows of blocks are reversed, and each block is flipped. -/
theorem C78_flip_etc (fmt : Format) (data data' : List UInt8) (w n : Nat) (image image' out out' : List UInt32)
    (hs : fmt.SizesOk w (4 * n) image) (hs' : fmt.SizesOk w (4 * n) image')
    (hok : decoder fmt data w (4 * n) image = .ok (.ok (), out))
    (hok' : decoder fmt data' w (4 * n) image' = .ok (.ok (), out'))
    (hb : ∀ bx, bx < ceilDiv w 4 → ∀ by_, by_ < n →
      fmt.EtcFlipped (blockBytes fmt.blockSize data (by_ * ceilDiv w 4 + bx))
        (blockBytes fmt.blockSize data' ((n - 1 - by_) * ceilDiv w 4 + bx)))
    (x y : Nat) (hx : x < w) (hy : y < 4 * n) :
    out'[(4 * n - 1 - y) * w + x]? = out[y * w + x]? := by
  have hbx : x / 4 < ceilDiv w 4 := by unfold ceilDiv; omega
  have hby : y / 4 < n := by omega
  have m := hb (x / 4) hbx (y / 4) hby
  have hl := FlipEtc.not_bc6_x m
  obtain ⟨_, _, d⟩ := ok_inv hs (legal_of hl _ _ _) hok
  obtain ⟨_, _, d'⟩ := ok_inv hs' (legal_of hl _ _ _) hok'
  rw [d.pixel x y hx hy, d'.pixel x _ hx (by omega)]
  unfold Spec.pixelAt
  rw [show (4 * n - 1 - y) / 4 = n - 1 - y / 4 by omega,
    show (4 * n - 1 - y) % 4 * 4 + x % 4 = flip4 (y % 4 * 4 + x % 4) by unfold flip4; omega,
    FlipEtc.texel_x FlipEtc.turns_flip m (by unfold flip4; omega),
    show flip4 (flip4 (y % 4 * 4 + x % 4)) = y % 4 * 4 + x % 4 by unfold flip4; omega]

/-- **C78** ETC textures left to right: the blocks of each row are reversed, and each block is mirrored. -/
theorem C78_mirror_etc (fmt : Format) (data data' : List UInt8) (n h : Nat) (image image' out out' : List UInt32)
    (hs : fmt.SizesOk (4 * n) h image) (hs' : fmt.SizesOk (4 * n) h image')
    (hok : decoder fmt data (4 * n) h image = .ok (.ok (), out))
    (hok' : decoder fmt data' (4 * n) h image' = .ok (.ok (), out'))
    (hb : ∀ bx, bx < n → ∀ by_, by_ < ceilDiv h 4 →
      fmt.EtcMirrored (blockBytes fmt.blockSize data (by_ * n + bx))
        (blockBytes fmt.blockSize data' (by_ * n + (n - 1 - bx))))
    (x y : Nat) (hx : x < 4 * n) (hy : y < h) :
    out'[y * (4 * n) + (4 * n - 1 - x)]? = out[y * (4 * n) + x]? := by
  have hby : y / 4 < ceilDiv h 4 := by unfold ceilDiv; omega
  have m := hb (x / 4) (by omega) (y / 4) hby
  have hl := FlipEtc.not_bc6_x m
  obtain ⟨_, _, d⟩ := ok_inv hs (legal_of hl _ _ _) hok
  obtain ⟨_, _, d'⟩ := ok_inv hs' (legal_of hl _ _ _) hok'
  rw [d.pixel x y hx hy, d'.pixel _ y (by omega) hy]
  have hn : ceilDiv (4 * n) 4 = n := by unfold ceilDiv; omega
  unfold Spec.pixelAt
  rw [hn, show (4 * n - 1 - x) / 4 = n - 1 - x / 4 by omega,
    show y % 4 * 4 + (4 * n - 1 - x) % 4 = mirror4 (y % 4 * 4 + x % 4) by unfold mirror4; omega,
    FlipEtc.texel_x FlipEtc.turns_mirror m (by unfold mirror4; omega),
    show mirror4 (mirror4 (y % 4 * 4 + x % 4)) = y % 4 * 4 + x % 4 by unfold mirror4; omega]

/- An ETC1 block in individual mode with an upper and a lower half, upside down; an ETC1 block in differential
mode with a left and a right half, left to right (the differences of red and blue change their signs); a T
block of ETC2 RGBA1; and an ETC2 RGBA8 block. -/
example : Format.EtcFlipped .etc1 [0x12, 0x34, 0x56, 0x29, 0, 0, 0, 1] [0x21, 0x43, 0x65, 0x45, 0, 0, 0, 8] ∧
    Format.EtcMirrored .etc1 [0x52, 0x48, 0x2f, 0x2a, 0, 0, 0, 1] [0x66, 0x48, 0x21, 0x46, 0, 0, 0x10, 0] ∧
    Format.EtcFlipped .etc2rgba1 [0xfb, 0, 0, 0x04, 0, 0, 0, 2] [0xfb, 0, 0, 0x04, 0, 0, 0, 4] ∧
    Format.EtcFlipped .etc2rgba8 [100, 0x21, 0xa0, 0, 0, 0, 0, 0, 0x12, 0x34, 0x56, 0x28, 0, 0, 0, 1]
      [100, 0x21, 0, 0x50, 0, 0, 0, 0, 0x12, 0x34, 0x56, 0x28, 0, 0, 0, 8] := by
  have ht : Etc.mode true [0xfb, 0, 0, 0x04, 0, 0, 0, 2] = .t := by decide +kernel
  have hi : Etc.mode (Etc.diffBit ([100, 0x21, 0xa0, 0, 0, 0, 0, 0, 0x12, 0x34, 0x56, 0x28, 0, 0, 0, 1].drop 8))
      ([100, 0x21, 0xa0, 0, 0, 0, 0, 0, 0x12, 0x34, 0x56, 0x28, 0, 0, 0, 1].drop 8) = .individual := by
    decide +kernel
  refine ⟨⟨?_, ?_⟩, ⟨?_, ?_⟩, ?_, ⟨?_, ?_⟩, ?_⟩
  · rw [if_pos (by decide +kernel)]
    exact ⟨by decide +kernel, by decide +kernel, by decide +kernel, by decide +kernel⟩
  · unfold Etc.IndicesMoved; decide +kernel
  · rw [if_pos (by decide +kernel)]
    exact ⟨by decide +kernel, by decide +kernel, by decide +kernel, by decide +kernel⟩
  · unfold Etc.IndicesMoved; decide +kernel
  · simp only [Format.EtcFlipped, Format.EtcMoved, Etc.Etc2Moved, ht]
    unfold Etc.IndicesMoved; decide +kernel
  · decide +kernel
  · decide +kernel
  · simp only [Etc.Etc2Moved, hi]
    refine ⟨?_, ?_⟩
    · rw [if_neg (by decide +kernel)]; decide +kernel
    · unfold Etc.IndicesMoved; decide +kernel

/-- The mirrored texels of a planar block of ETC2. -/
def mirroredPlanar : List UInt32 :=
  (List.range 16).map fun i => Etc.planarTexel [0x00, 0x00, 0xfb, 0x03, 0, 0, 0, 5] (mirror4 i)

omit [Build] in
/-- No ETC2 block has these texels: in a planar block the red of the first texel has six bits, and the other
blocks show at most eight colours. -/
theorem mirroredPlanar_unreached (blk : List UInt8)
    (h : ∀ i, i < 16 → mirroredPlanar[i]? = some (Etc.etc2RgbTexel blk i)) : False := by
  have few : ∀ (table : Nat → UInt32) (k : Nat → Nat),
      (∀ i, i < 16 → k i < 8 ∧ Etc.etc2RgbTexel blk i = table (k i)) → False := fun table k hk => by
    have hsub : mirroredPlanar.eraseDups ⊆ (List.range 8).map table := by
      intro v hv
      obtain ⟨i, hi⟩ := List.mem_iff_getElem?.1 (List.mem_eraseDups.1 hv)
      have hi16 : i < 16 := by
        have h1 := (List.getElem?_eq_some_iff.1 hi).1
        rwa [show mirroredPlanar.length = 16 by decide +kernel] at h1
      rw [h i hi16, (hk i hi16).2] at hi
      exact List.mem_map.2 ⟨k i, List.mem_range.2 (hk i hi16).1, Option.some.inj hi⟩
    have hn : mirroredPlanar.eraseDups.Nodup := by decide +kernel
    have := hn.length_le_of_subset hsub
    rw [List.length_map, List.length_range] at this
    exact absurd this (by decide +kernel)
  have hi := fun i => etc_index_lt blk i
  cases e : Etc.mode (Etc.diffBit blk) blk with
  | individual =>
    refine few (etc1Palette blk) (fun i => (if Etc.second blk i then 4 else 0) + Etc.index blk i) fun i _ =>
      ⟨by have := hi i; split <;> omega, ?_⟩
    rw [← etc1_entry]; unfold Etc.etc2RgbTexel; rw [e]
  | differential =>
    refine few (etc1Palette blk) (fun i => (if Etc.second blk i then 4 else 0) + Etc.index blk i) fun i _ =>
      ⟨by have := hi i; split <;> omega, ?_⟩
    rw [← etc1_entry]; unfold Etc.etc2RgbTexel; rw [e]
  | t =>
    refine few (fun k => Etc.tPaint blk k 255) (fun i => Etc.index blk i) fun i _ =>
      ⟨by have := hi i; omega, ?_⟩
    unfold Etc.etc2RgbTexel; rw [e]
  | h =>
    refine few (fun k => Etc.hPaint blk k 255) (fun i => Etc.index blk i) fun i _ =>
      ⟨by have := hi i; omega, ?_⟩
    unfold Etc.etc2RgbTexel; rw [e]
  | planar =>
    have h0 := h 0 (by decide)
    unfold Etc.etc2RgbTexel at h0
    rw [e] at h0
    have h0 : some (px 3 0 30 255) = some (Etc.planarTexel blk 0) := by
      rw [← show mirroredPlanar[0]? = some (px 3 0 30 255) by decide +kernel]; exact h0
    injection h0 with h0
    have hr := congrArg red h0
    have c : ∀ x y ch, Etc.planarChannel blk x y ch < 256 := fun x y ch => by
      unfold Etc.planarChannel Etc.clamp255
      split
      · decide
      · split <;> omega
    unfold Etc.planarTexel at hr
    rw [red_px (by decide) (by decide) (by decide) (by decide), red_px (c _ _ _) (c _ _ _) (c _ _ _) (by decide)] at hr
    have hb : Etc.bits blk 62 57 < 64 := bits_lt blk 62 57
    have he : Etc.planarChannel blk (0 % 4) (0 / 4) 0 = expand6 (Etc.bits blk 62 57) := by
      unfold Etc.planarChannel
      have : expand6 (Etc.bits blk 62 57) < 256 := by unfold expand6; omega
      show Etc.clamp255 ((((0 : Nat) : Int) * (_ - _) + ((0 : Nat) : Int) * (_ - _)
        + 4 * (expand6 (Etc.bits blk 62 57) : Nat) + 2) / 4) = _
      rw [Int.ofNat_zero, Int.zero_mul, Int.zero_mul]
      unfold Etc.clamp255
      generalize expand6 (Etc.bits blk 62 57) = v at this
      split
      · omega
      · split <;> omega
    rw [he] at hr
    unfold expand6 at hr
    omega

/-- **C78** (limit) Planar blocks are left out for good reason: there is an ETC2 texture of one planar block such
that no data at all decode to the picture left to right. -/
theorem C78_planar_not_mirrored (image : List UInt32) (hi : image.length < 2 ^ 61) (hi' : 16 ≤ image.length) :
    ∃ data out, decoder .etc2rgb data 4 4 image = .ok (.ok (), out) ∧
      ∀ data' image' out', image'.length < 2 ^ 61 → decoder .etc2rgb data' 4 4 image' = .ok (.ok (), out') →
        ¬ ∀ x y, x < 4 → y < 4 → out'[y * 4 + (3 - x)]? = out[y * 4 + x]? := by
  obtain ⟨out, e, d⟩ := (decoder_spec .etc2rgb).success [0x00, 0x00, 0xfb, 0x03, 0, 0, 0, 5] 4 4 image
    ⟨hi, by decide, by decide⟩ (by decide) hi' (fun _ _ => trivial)
  refine ⟨_, out, e, fun data' image' out' hl hok hm => ?_⟩
  obtain ⟨_, _, d'⟩ := ok_inv (fmt := .etc2rgb) ⟨hl, by decide, by decide⟩ (fun _ _ => trivial) hok
  refine mirroredPlanar_unreached (blockBytes 8 data' 0) fun i hi => ?_
  have p := d'.pixel (i % 4) (i / 4) (by omega) (by omega)
  have q := d.pixel (3 - i % 4) (i / 4) (by omega) (by omega)
  have m := hm (3 - i % 4) (i / 4) (by omega) (by omega)
  rw [show 3 - (3 - i % 4) = i % 4 by omega, p, q] at m
  have e1 : pixelAt 4 4 8 Etc.etc2RgbTexel data' 4 (i % 4) (i / 4) = Etc.etc2RgbTexel (blockBytes 8 data' 0) i := by
    unfold pixelAt
    rw [show i / 4 / 4 * ceilDiv 4 4 + i % 4 / 4 = 0 by rw [show i / 4 / 4 = 0 by omega]; omega,
      show i / 4 % 4 * 4 + i % 4 % 4 = i by omega]
  rw [← e1]
  refine Eq.trans ?_ m.symm
  have key : ∀ j, j < 16 → mirroredPlanar[j]? = some (pixelAt 4 4 8 Etc.etc2RgbTexel
      [0x00, 0x00, 0xfb, 0x03, 0, 0, 0, 5] 4 (3 - j % 4) (j / 4)) := by decide +kernel
  exact key i hi

/- More than eight colours, and a first texel whose red is 3. -/
example : 8 < mirroredPlanar.eraseDups.length ∧ mirroredPlanar[0]? = some (px 3 0 30 255) ∧
    mirroredPlanar[3]? = some (px 0 0 121 255) := by decide +kernel

end Verif.Props
