import Verif.Proofs.Recolour

/-!
# Property C91: channels can be exchanged in the data

The relations between the two blocks are in Spec/Recolour.lean.
-/

namespace Verif.Props

open Verif Verif.Spec Verif.Proofs

section
variable [Build]

/-- **C91** BC5 and EAC RG11: exchanging the halves of all blocks exchanges red and green. -/
theorem C91_red_green (fmt : Format) (hf : fmt ∈ [.bc5, .eacrg, .eacrgs]) (data data' : List UInt8) (w h : Nat)
    (image image' out out' : List UInt32) (hs : fmt.SizesOk w h image) (hs' : fmt.SizesOk w h image')
    (hok : decoder fmt data w h image = .ok (.ok (), out))
    (hok' : decoder fmt data' w h image' = .ok (.ok (), out'))
    (hb : ∀ k, k < numBlocks 4 4 w h →
      HalvesSwapped (blockBytes fmt.blockSize data k) (blockBytes fmt.blockSize data' k))
    (x y : Nat) (hx : x < w) (hy : y < h) :
    out'[y * w + x]? = out[y * w + x]?.map swapRedGreen := by
  refine Recolour.picture ?_ hs hs' hok hok' (fun k hk i hi => ?_) hx hy
  · constructor <;> (rintro rfl; revert hf; decide)
  · simp only [List.mem_cons, List.not_mem_nil, or_false] at hf
    rcases hf with rfl | rfl | rfl
    · exact Recolour.bc5 (hb k hk) hi
    · exact Recolour.eacrg false (hb k hk) i
    · exact Recolour.eacrg true (hb k hk) i

/-- **C91** ETC1 and ATC: exchanging the fields of red and blue in all blocks exchanges red and blue. -/
theorem C91_red_blue (fmt : Format) (hf : fmt ∈ [.etc1, .atcrgb]) (data data' : List UInt8) (w h : Nat)
    (image image' out out' : List UInt32) (hs : fmt.SizesOk w h image) (hs' : fmt.SizesOk w h image')
    (hok : decoder fmt data w h image = .ok (.ok (), out))
    (hok' : decoder fmt data' w h image' = .ok (.ok (), out'))
    (hb : ∀ k, k < numBlocks 4 4 w h →
      fmt.RedBlueSwapped (blockBytes fmt.blockSize data k) (blockBytes fmt.blockSize data' k))
    (x y : Nat) (hx : x < w) (hy : y < h) :
    out'[y * w + x]? = out[y * w + x]?.map swapRedBlue := by
  refine Recolour.picture ?_ hs hs' hok hok' (fun k hk i hi => ?_) hx hy
  · constructor <;> (rintro rfl; revert hf; decide)
  · simp only [List.mem_cons, List.not_mem_nil, or_false] at hf
    rcases hf with rfl | rfl
    · exact Recolour.etc1 (hb k hk) hi
    · exact Recolour.atc (hb k hk) hi

/-- **C91** BC1: the same, if the exchange leaves the order of the two endpoint words of every block as it was. -/
theorem C91_bc1 (data data' : List UInt8) (w h : Nat) (image image' out out' : List UInt32)
    (hs : Format.SizesOk .bc1 w h image) (hs' : Format.SizesOk .bc1 w h image')
    (hok : decoder .bc1 data w h image = .ok (.ok (), out))
    (hok' : decoder .bc1 data' w h image' = .ok (.ok (), out'))
    (hb : ∀ k, k < numBlocks 4 4 w h →
      Format.RedBlueSwapped .bc1 (blockBytes 8 data k) (blockBytes 8 data' k) ∧
      SameOrder (blockBytes 8 data k) (blockBytes 8 data' k))
    (x y : Nat) (hx : x < w) (hy : y < h) :
    out'[y * w + x]? = out[y * w + x]?.map swapRedBlue :=
  Recolour.picture (by decide) hs hs' hok hok' (fun k hk _ hi => Recolour.bc1 (hb k hk).1 (hb k hk).2 hi) hx hy

/-- **C91** ETC2 RGB: the same, if the blocks use none of the modes T, H and planar. -/
theorem C91_etc2 (data data' : List UInt8) (w h : Nat) (image image' out out' : List UInt32)
    (hs : Format.SizesOk .etc2rgb w h image) (hs' : Format.SizesOk .etc2rgb w h image')
    (hok : decoder .etc2rgb data w h image = .ok (.ok (), out))
    (hok' : decoder .etc2rgb data' w h image' = .ok (.ok (), out'))
    (hb : ∀ k, k < numBlocks 4 4 w h →
      Format.RedBlueSwapped .etc2rgb (blockBytes 8 data k) (blockBytes 8 data' k) ∧
      EtcPlain (blockBytes 8 data k))
    (x y : Nat) (hx : x < w) (hy : y < h) :
    out'[y * w + x]? = out[y * w + x]?.map swapRedBlue :=
  Recolour.picture (by decide) hs hs' hok hok' (fun k hk _ hi => Recolour.etc2 (hb k hk).1 (hb k hk).2 hi) hx hy

end

/-- The same for all data, as it holds for ETC1 and ATC. -/
def RedBlueExchanges [Build] (fmt : Format) : Prop :=
  ∀ (data data' : List UInt8) (w h : Nat) (image image' out out' : List UInt32),
    fmt.SizesOk w h image → fmt.SizesOk w h image' →
    decoder fmt data w h image = .ok (.ok (), out) → decoder fmt data' w h image' = .ok (.ok (), out') →
    (∀ k, k < numBlocks 4 4 w h →
      fmt.RedBlueSwapped (blockBytes fmt.blockSize data k) (blockBytes fmt.blockSize data' k)) →
    ∀ x y, x < w → y < h → out'[y * w + x]? = out[y * w + x]?.map swapRedBlue

/-- **C91** For BC1 it does not hold for all data: a block from red to blue has four colours, from blue to red three and black. -/
theorem C91_bc1_order_needed (b : Build) : ¬ @RedBlueExchanges b .bc1 := by
  intro H
  have hs : Format.SizesOk .bc1 1 1 [0] := ⟨by decide, by decide, by decide⟩
  have h := @H [0x00, 0xf8, 0x1f, 0x00, 3, 0, 0, 0] [0x1f, 0x00, 0x00, 0xf8, 3, 0, 0, 0] 1 1 [0] [0]
    [0xff5500aa] [0xff000000] hs hs
    (by obtain ⟨ck⟩ := b; cases ck <;> rfl) (by obtain ⟨ck⟩ := b; cases ck <;> rfl)
    (fun k hk => by
      have : k = 0 := by
        have : numBlocks 4 4 1 1 = 1 := by decide
        omega
      subst this
      unfold Format.RedBlueSwapped Bc1Swapped Word565Swapped
      decide +kernel) 0 0 (by decide) (by decide)
  revert h
  decide +kernel

/-- **C91** For ETC2 RGB it does not hold for all data: the T mode of a block becomes the planar mode. -/
theorem C91_etc2_modes_needed (b : Build) : ¬ @RedBlueExchanges b .etc2rgb := by
  intro H
  have hs : Format.SizesOk .etc2rgb 1 1 [0] := ⟨by decide, by decide, by decide⟩
  have h := @H [0xfb, 0x00, 0x00, 2, 0, 0, 0, 0] [0x00, 0x00, 0xfb, 2, 0, 0, 0, 0] 1 1 [0] [0]
    [0xffff0000] [0xff000079] hs hs
    (by obtain ⟨ck⟩ := b; cases ck <;> rfl) (by obtain ⟨ck⟩ := b; cases ck <;> rfl)
    (fun k hk => by
      have : k = 0 := by
        have : numBlocks 4 4 1 1 = 1 := by decide
        omega
      subst this
      unfold Format.RedBlueSwapped EtcSwapped
      decide +kernel) 0 0 (by decide) (by decide)
  revert h
  decide +kernel

/- BC5: a texture of one block and the one with exchanged halves. -/
example [Build] : Format.SizesOk .bc5 4 4 (List.replicate 16 0) ∧
    (∃ out, decoder .bc5 (List.range 16 |>.map UInt8.ofNat) 4 4 (List.replicate 16 0) = .ok (.ok (), out)) ∧
    HalvesSwapped (List.range 16 |>.map UInt8.ofNat)
      [8, 9, 10, 11, 12, 13, 14, 15, 0, 1, 2, 3, 4, 5, 6, 7] := by
  have hs : Format.SizesOk .bc5 4 4 (List.replicate 16 0) := ⟨by decide, by decide, by decide⟩
  obtain ⟨o, e, _⟩ := (decoder_spec .bc5).success (List.range 16 |>.map UInt8.ofNat) 4 4
    (List.replicate 16 0) hs (by decide) (by decide) (fun _ _ => trivial)
  exact ⟨hs, ⟨o, e⟩, by unfold HalvesSwapped; decide⟩

/- ETC and ATC blocks with red and blue exchanged; the ETC2 block is in the differential mode. -/
example : Format.RedBlueSwapped .etc1 [0x10, 0x51, 0xa2, 3, 4, 5, 6, 7] [0xa2, 0x51, 0x10, 3, 4, 5, 6, 7] ∧
    Format.RedBlueSwapped .etc2rgb [0x10, 0x51, 0xa2, 3, 4, 5, 6, 7] [0xa2, 0x51, 0x10, 3, 4, 5, 6, 7] ∧
    EtcPlain [0x10, 0x51, 0xa2, 3, 4, 5, 6, 7] ∧
    Format.RedBlueSwapped .atcrgb [0x41, 0x8c, 0x22, 0x18, 4, 5, 6, 7] [0x43, 0x84, 0x23, 0x10, 4, 5, 6, 7] := by
  unfold Format.RedBlueSwapped EtcSwapped EtcPlain AtcSwapped Word565Swapped
  decide +kernel

/- A BC1 block from white to black-red keeps its order. -/
example : Format.RedBlueSwapped .bc1 [0xff, 0xff, 0x00, 0x10, 4, 5, 6, 7] [0xff, 0xff, 0x02, 0x00, 4, 5, 6, 7] ∧
    SameOrder [0xff, 0xff, 0x00, 0x10, 4, 5, 6, 7] [0xff, 0xff, 0x02, 0x00, 4, 5, 6, 7] := by
  unfold Format.RedBlueSwapped Bc1Swapped Word565Swapped SameOrder
  decide +kernel

end Verif.Props
