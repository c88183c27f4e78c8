import Verif.Spec.CrnRoundTrip
import Verif.Proofs.Crn.WriteFile
import Verif.Props.Crunch

/-!
# Block data in Crunch files (C82)

Data of BC1, BC3, BC4 and BC5 textures can be kept in Crunch files: there is a file from which
`decode_crunch` gets what the decoder of the block format gets from the data.

`Spec.blockBytes 8 data j` are bytes `8 j` to `8 j + 7` of the data. They are a block of a BC1 or BC4
texture and half a block of a BC3 or BC5 texture. The first four bytes of a half with colours and the
first two of a half with alpha values are its endpoints, the others are its selectors.
-/

namespace Verif.Props

open Verif Verif.Spec Verif.Spec.Crn Verif.Proofs.Crn Verif.Proofs.Crn.Enc

namespace RoundTrip

theorem half_length {data : List UInt8} {m j : Nat} (hd : data.length = m * 8) (hj : j < m) :
    (Spec.blockBytes 8 data j).length = 8 := by
  unfold Spec.blockBytes
  rw [List.length_take, List.length_drop]; omega

theorem block16 (data : List UInt8) (k : Nat) :
    Spec.blockBytes 16 data k = Spec.blockBytes 8 data (2 * k) ++ Spec.blockBytes 8 data (2 * k + 1) := by
  unfold Spec.blockBytes
  rw [show 16 = 8 + 8 from rfl, List.take_add, List.drop_drop, show k * (8 + 8) = 2 * k * 8 by omega,
    show (2 * k + 1) * 8 = 2 * k * 8 + 8 by omega]

/-- A palette for parts of `m` bytes. -/
theorem palette_of {n m : Nat} {part : Nat → List UInt8} (h : FewKinds n part)
    (hlen : ∀ k, k < n → (part k).length = m) (hn : 0 < n) :
    ∃ l : List (List UInt8), (∀ e ∈ l, e.length = m) ∧ l.length ≤ 8192 ∧ 0 < l.length ∧
      ∀ k, k < n → part k ∈ l := by
  obtain ⟨kinds, hk, hm⟩ := h
  have hmem : ∀ k, k < n → part k ∈ kinds.filter (fun e => e.length == m) := by
    intro k hk'
    exact List.mem_filter.mpr ⟨hm k hk', by simp [hlen k hk']⟩
  refine ⟨kinds.filter (fun e => e.length == m), ?_, ?_, ?_, hmem⟩
  · intro e he
    simpa using (List.mem_filter.mp he).2
  · exact Nat.le_trans (List.length_filter_le _ _) hk
  · exact List.length_pos_of_mem (hmem 0 hn)

theorem fewKinds_of_le {n : Nat} (part : Nat → List UInt8) (h : n ≤ 8192) : FewKinds n part :=
  ⟨(List.range n).map part, by simpa using h, fun k hk => List.mem_map.mpr ⟨k, by simpa using hk, rfl⟩⟩

theorem _root_.Verif.Spec.Crn.Sizes.blocks {w h : Nat} (hs : Sizes w h) : blocksOf h * blocksOf w = numBlocks 4 4 w h := by
  obtain ⟨h1, h2, -, -, -⟩ := hs
  unfold numBlocks ceilDiv blocksOf
  rw [Nat.max_eq_left h1, Nat.max_eq_left h2, Nat.mul_comm]
  rfl

theorem _root_.Verif.Spec.Crn.Sizes.pos {w h : Nat} (hs : Sizes w h) : 0 < numBlocks 4 4 w h := by
  rw [← hs.blocks]
  exact Nat.mul_pos (by unfold blocksOf; omega) (by unfold blocksOf; omega)

def zeros (n : Nat) : List (List UInt8) := [List.replicate n 0]

end RoundTrip

open RoundTrip

section
variable (w h : Nat) (hs : Sizes w h) (data : List UInt8)
include hs

/-- **C82** BC1. -/
theorem C82_bc1 (hdata : data.length = bytesNeeded 4 4 8 w h)
    (hE : FewKinds (numBlocks 4 4 w h) fun k => (Spec.blockBytes 8 data k).take 4)
    (hS : FewKinds (numBlocks 4 4 w h) fun k => (Spec.blockBytes 8 data k).drop 4) :
    Stores everyBuild @Model.Crn.decodeCrunch @Model.decodeBc1 0 data w h := by
  have hb := hs.blocks
  have hlen := fun j hj => half_length (j := j) (m := numBlocks 4 4 w h) hdata hj
  obtain ⟨E, e1, e2, e3, e4⟩ := palette_of (m := 4) hE
    (fun k hk => by rw [List.length_take, hlen k hk]; rfl) hs.pos
  obtain ⟨S, s1, s2, s3, s4⟩ := palette_of (m := 4) hS
    (fun k hk => by rw [List.length_drop, hlen k hk]) hs.pos
  obtain ⟨file, hU, hL, hw, hh, hf⟩ := file_exists (format := 0) (w := w) (h := h)
    (P := ⟨E, S, zeros 2, zeros 6⟩)
    ⟨e1, s1, by simp [zeros], by simp [zeros], e2, s2, by simp [zeros], by simp [zeros], e3, by simp [zeros]⟩
    (by omega) hs.w_lt hs.h_lt rfl (by simp) (by rw [hb]; have := hs.blocks_lt; omega)
    (raw := 8) (data := data) (by rw [hb]; exact hdata)
    (fun _ k => (Spec.blockBytes 8 data k).take 4) (fun _ k => (Spec.blockBytes 8 data k).drop 4)
    (by
      intro i p k hp hk
      match i, hp with
      | 0, hp => cases hp; exact e4 k (hb ▸ hk))
    (by
      intro i p k hp hk
      match i, hp with
      | 0, hp => cases hp; exact s4 k (hb ▸ hk))
    (by
      intro k _
      simp [List.range_succ, List.take_append_drop])
  refine ⟨file, hL.small, hw, hh, hf, fun b _ w' h' image => ?_⟩
  rw [@C51_blocks b file data hU hL, hf]; rfl

/-- **C82** BC4. -/
theorem C82_bc4 (hdata : data.length = bytesNeeded 4 4 8 w h)
    (hE : FewKinds (numBlocks 4 4 w h) fun k => (Spec.blockBytes 8 data k).take 2)
    (hS : FewKinds (numBlocks 4 4 w h) fun k => (Spec.blockBytes 8 data k).drop 2) :
    Stores everyBuild @Model.Crn.decodeCrunch @Model.decodeBc4 9 data w h := by
  have hb := hs.blocks
  have hlen := fun j hj => half_length (j := j) (m := numBlocks 4 4 w h) hdata hj
  obtain ⟨E, e1, e2, e3, e4⟩ := palette_of (m := 2) hE
    (fun k hk => by rw [List.length_take, hlen k hk]; rfl) hs.pos
  obtain ⟨S, s1, s2, s3, s4⟩ := palette_of (m := 6) hS
    (fun k hk => by rw [List.length_drop, hlen k hk]) hs.pos
  obtain ⟨file, hU, hL, hw, hh, hf⟩ := file_exists (format := 9) (w := w) (h := h)
    (P := ⟨zeros 4, zeros 4, E, S⟩)
    ⟨by simp [zeros], by simp [zeros], e1, s1, by simp [zeros], by simp [zeros], e2, s2, by simp [zeros], e3⟩
    (by omega) hs.w_lt hs.h_lt rfl (by simp) (by rw [hb]; have := hs.blocks_lt; omega)
    (raw := 8) (data := data) (by rw [hb]; exact hdata)
    (fun _ k => (Spec.blockBytes 8 data k).take 2) (fun _ k => (Spec.blockBytes 8 data k).drop 2)
    (by
      intro i p k hp hk
      match i, hp with
      | 0, hp => cases hp; exact e4 k (hb ▸ hk))
    (by
      intro i p k hp hk
      match i, hp with
      | 0, hp => cases hp; exact s4 k (hb ▸ hk))
    (by
      intro k _
      simp [List.range_succ, List.take_append_drop])
  refine ⟨file, hL.small, hw, hh, hf, fun b _ w' h' image => ?_⟩
  rw [@C51_blocks b file data hU hL, hf]; rfl

/-- **C82** BC3: the first half of a block has the alpha values, the second one the colours. -/
theorem C82_bc3 (hdata : data.length = bytesNeeded 4 4 16 w h)
    (hAE : FewKinds (numBlocks 4 4 w h) fun k => (Spec.blockBytes 8 data (2 * k)).take 2)
    (hAS : FewKinds (numBlocks 4 4 w h) fun k => (Spec.blockBytes 8 data (2 * k)).drop 2)
    (hCE : FewKinds (numBlocks 4 4 w h) fun k => (Spec.blockBytes 8 data (2 * k + 1)).take 4)
    (hCS : FewKinds (numBlocks 4 4 w h) fun k => (Spec.blockBytes 8 data (2 * k + 1)).drop 4) :
    Stores everyBuild @Model.Crn.decodeCrunch @Model.decodeBc3 2 data w h := by
  have hb := hs.blocks
  have hd : data.length = 2 * numBlocks 4 4 w h * 8 := by rw [hdata]; unfold bytesNeeded; omega
  have hlen := fun j hj => half_length (j := j) hd hj
  obtain ⟨AE, a1, a2, a3, a4⟩ := palette_of (m := 2) hAE
    (fun k hk => by rw [List.length_take, hlen _ (by omega)]; rfl) hs.pos
  obtain ⟨AS, b1, b2, b3, b4⟩ := palette_of (m := 6) hAS
    (fun k hk => by rw [List.length_drop, hlen _ (by omega)]) hs.pos
  obtain ⟨CE, c1, c2, c3, c4⟩ := palette_of (m := 4) hCE
    (fun k hk => by rw [List.length_take, hlen _ (by omega)]; rfl) hs.pos
  obtain ⟨CS, d1, d2, d3, d4⟩ := palette_of (m := 4) hCS
    (fun k hk => by rw [List.length_drop, hlen _ (by omega)]) hs.pos
  obtain ⟨file, hU, hL, hw, hh, hf⟩ := file_exists (format := 2) (w := w) (h := h)
    (P := ⟨CE, CS, AE, AS⟩) ⟨c1, d1, a1, b1, c2, d2, a2, b2, c3, a3⟩
    (by omega) hs.w_lt hs.h_lt rfl (by simp) (by rw [hb]; have := hs.blocks_lt; omega)
    (raw := 16) (data := data) (by rw [hb]; exact hdata)
    (fun i k => (Spec.blockBytes 8 data (2 * k + i)).take (if i = 0 then 2 else 4))
    (fun i k => (Spec.blockBytes 8 data (2 * k + i)).drop (if i = 0 then 2 else 4))
    (by
      intro i p k hp hk
      match i, hp with
      | 0, hp => cases hp; exact a4 k (hb ▸ hk)
      | 1, hp => cases hp; exact c4 k (hb ▸ hk))
    (by
      intro i p k hp hk
      match i, hp with
      | 0, hp => cases hp; exact b4 k (hb ▸ hk)
      | 1, hp => cases hp; exact d4 k (hb ▸ hk))
    (by
      intro k _
      rw [block16]
      simp [List.range_succ, List.take_append_drop])
  refine ⟨file, hL.small, hw, hh, hf, fun b _ w' h' image => ?_⟩
  rw [@C51_blocks b file data hU hL, hf]; rfl

/-- **C82** BC5: both halves of a block use the same palettes. -/
theorem C82_bc5 (hdata : data.length = bytesNeeded 4 4 16 w h)
    (hE : FewKinds (2 * numBlocks 4 4 w h) fun j => (Spec.blockBytes 8 data j).take 2)
    (hS : FewKinds (2 * numBlocks 4 4 w h) fun j => (Spec.blockBytes 8 data j).drop 2) :
    Stores everyBuild @Model.Crn.decodeCrunch @Model.decodeBc5 7 data w h := by
  have hb := hs.blocks
  have hpos := hs.pos
  have hd : data.length = 2 * numBlocks 4 4 w h * 8 := by rw [hdata]; unfold bytesNeeded; omega
  have hlen := fun j hj => half_length (j := j) hd hj
  obtain ⟨E, e1, e2, e3, e4⟩ := palette_of (m := 2) hE
    (fun k hk => by rw [List.length_take, hlen k hk]; rfl) (by omega)
  obtain ⟨S, s1, s2, s3, s4⟩ := palette_of (m := 6) hS
    (fun k hk => by rw [List.length_drop, hlen k hk]) (by omega)
  obtain ⟨file, hU, hL, hw, hh, hf⟩ := file_exists (format := 7) (w := w) (h := h)
    (P := ⟨zeros 4, zeros 4, E, S⟩)
    ⟨by simp [zeros], by simp [zeros], e1, s1, by simp [zeros], by simp [zeros], e2, s2, by simp [zeros], e3⟩
    (by omega) hs.w_lt hs.h_lt rfl (by simp) (by rw [hb]; have := hs.blocks_lt; omega)
    (raw := 16) (data := data) (by rw [hb]; exact hdata)
    (fun i k => (Spec.blockBytes 8 data (2 * k + i)).take 2)
    (fun i k => (Spec.blockBytes 8 data (2 * k + i)).drop 2)
    (by
      intro i p k hp hk
      rw [hb] at hk
      match i, hp with
      | 0, hp => cases hp; exact e4 (2 * k + 0) (by omega)
      | 1, hp => cases hp; exact e4 (2 * k + 1) (by omega))
    (by
      intro i p k hp hk
      rw [hb] at hk
      match i, hp with
      | 0, hp => cases hp; exact s4 (2 * k + 0) (by omega)
      | 1, hp => cases hp; exact s4 (2 * k + 1) (by omega))
    (by
      intro k _
      rw [block16]
      simp [List.range_succ, List.take_append_drop])
  refine ⟨file, hL.small, hw, hh, hf, fun b _ w' h' image => ?_⟩
  rw [@C51_blocks b file data hU hL, hf]; rfl

omit hs in
/-- **C82** Textures of at most 8192 blocks, 4096 for BC5, can be stored whatever their data are. -/
theorem C82_small (hw : 0 < w) (hh : 0 < h) (hw' : w < 65536) (hh' : h < 65536)
    (hn : numBlocks 4 4 w h ≤ 8192) :
    (data.length = bytesNeeded 4 4 8 w h →
      Stores everyBuild @Model.Crn.decodeCrunch @Model.decodeBc1 0 data w h ∧
      Stores everyBuild @Model.Crn.decodeCrunch @Model.decodeBc4 9 data w h) ∧
    (data.length = bytesNeeded 4 4 16 w h →
      Stores everyBuild @Model.Crn.decodeCrunch @Model.decodeBc3 2 data w h ∧
      (numBlocks 4 4 w h ≤ 4096 → Stores everyBuild @Model.Crn.decodeCrunch @Model.decodeBc5 7 data w h)) := by
  have hs : Sizes w h := ⟨hw, hh, hw', hh', by omega⟩
  refine ⟨fun hd => ⟨?_, ?_⟩, fun hd => ⟨?_, fun h4 => ?_⟩⟩
  · exact C82_bc1 w h hs data hd (fewKinds_of_le _ hn) (fewKinds_of_le _ hn)
  · exact C82_bc4 w h hs data hd (fewKinds_of_le _ hn) (fewKinds_of_le _ hn)
  · exact C82_bc3 w h hs data hd (fewKinds_of_le _ hn) (fewKinds_of_le _ hn) (fewKinds_of_le _ hn)
      (fewKinds_of_le _ hn)
  · exact C82_bc5 w h hs data hd (fewKinds_of_le _ (by omega)) (fewKinds_of_le _ (by omega))

end

/- A texture of 10 × 6 texels, six blocks that are all different. -/
example : Stores everyBuild @Model.Crn.decodeCrunch @Model.decodeBc1 0 ((List.range 48).map UInt8.ofNat) 10 6 :=
  ((C82_small 10 6 _ (by decide) (by decide) (by decide) (by decide) (by decide)).1 (by decide)).1

/- A texture of 4096 × 4096 texels, a million blocks that are all the same. -/
example : ∃ data : List UInt8, data.length = bytesNeeded 4 4 8 4096 4096 ∧
    FewKinds (numBlocks 4 4 4096 4096) (fun k => (Spec.blockBytes 8 data k).take 4) ∧
    FewKinds (numBlocks 4 4 4096 4096) (fun k => (Spec.blockBytes 8 data k).drop 4) ∧
    Stores everyBuild @Model.Crn.decodeCrunch @Model.decodeBc1 0 data 4096 4096 := by
  have hn : numBlocks 4 4 4096 4096 = 1048576 := by decide
  have hl : (List.replicate (1048576 * 8) (7 : UInt8)).length = bytesNeeded 4 4 8 4096 4096 := by
    rw [List.length_replicate]; unfold bytesNeeded; rw [hn]
  have hb : ∀ k, k < numBlocks 4 4 4096 4096 →
      Spec.blockBytes 8 (List.replicate (1048576 * 8) (7 : UInt8)) k = List.replicate 8 7 := by
    intro k hk
    rw [hn] at hk
    unfold Spec.blockBytes
    rw [List.drop_replicate, List.take_replicate, Nat.min_eq_left (by omega)]
  have hE : FewKinds (numBlocks 4 4 4096 4096)
      (fun k => (Spec.blockBytes 8 (List.replicate (1048576 * 8) (7 : UInt8)) k).take 4) :=
    ⟨[List.replicate 4 7], by decide, fun k hk => by simp only [hb k hk]; decide⟩
  have hS : FewKinds (numBlocks 4 4 4096 4096)
      (fun k => (Spec.blockBytes 8 (List.replicate (1048576 * 8) (7 : UInt8)) k).drop 4) :=
    ⟨[List.replicate 4 7], by decide, fun k hk => by simp only [hb k hk]; decide⟩
  exact ⟨_, hl, hE, hS, C82_bc1 4096 4096
    ⟨by decide, by decide, by decide, by decide, by rw [hn]; decide⟩ _ hl hE hS⟩

end Verif.Props
