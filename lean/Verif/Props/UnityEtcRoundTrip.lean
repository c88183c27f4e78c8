import Verif.Props.UnityRoundTrip
import Verif.Proofs.Crn.WriteEtcParts

/-!
# ETC block data in files of Unity's variant of Crunch (C86)

What C83 says about the BC formats, for the five ETC formats. `Spec.blockBytes 8 data j` are bytes `8 j`
to `8 j + 7` of the data: a block without alpha, or half a block with alpha, whose first half has the
alpha values. The first four bytes of a half with colours are its base colours, tables, mode and
direction, the first two of a half with alpha values are the base value, the multiplier and the table;
the others are the selectors.
-/

namespace Verif.Props

open Verif Verif.Spec Verif.Spec.Crn Verif.Proofs.Crn Verif.Proofs.Crn.Enc RoundTrip

theorem palette_atMost {m n l : Nat} {part : Nat → List UInt8} (h : Unity.AtMost m n part)
    (hlen : ∀ k, k < n → (part k).length = l) (hn : 0 < n) :
    ∃ p : List (List UInt8), (∀ e ∈ p, e.length = l) ∧ p.length ≤ m ∧ 0 < p.length ∧ ∀ k, k < n → part k ∈ p := by
  obtain ⟨kinds, hk, hm⟩ := h
  have hmem : ∀ k, k < n → part k ∈ kinds.filter (fun e => e.length == l) := by
    intro k hk'
    exact List.mem_filter.mpr ⟨hm k hk', by simp [hlen k hk']⟩
  refine ⟨kinds.filter (fun e => e.length == l), ?_, ?_, ?_, hmem⟩
  · intro e he
    simpa using (List.mem_filter.mp he).2
  · exact Nat.le_trans (List.length_filter_le _ _) hk
  · exact List.length_pos_of_mem (hmem 0 hn)

theorem atMost_of_le {m n : Nat} (part : Nat → List UInt8) (h : n ≤ m) : Unity.AtMost m n part :=
  ⟨(List.range n).map part, by simpa using h, fun k hk => List.mem_map.mpr ⟨k, by simpa using hk, rfl⟩⟩

section
variable (w h : Nat) (hs : Sizes w h) (data : List UInt8)
include hs

/-- **C86** ETC1 with one base colour per block: the format code 13. -/
theorem C86_etc1s (hdata : data.length = bytesNeeded 4 4 8 w h)
    (hone : ∀ k, k < numBlocks 4 4 w h → Unity.OneColour ((Spec.blockBytes 8 data k).take 4))
    (hE : Unity.AtMost 8192 (numBlocks 4 4 w h) fun k => (Spec.blockBytes 8 data k).take 4)
    (hS : Unity.AtMost 8192 (numBlocks 4 4 w h) fun k => (Spec.blockBytes 8 data k).drop 4) :
    Stores (panicFree w) @Model.Crn.Unity.decodeUnityCrunch @Model.decodeEtc1 13 data w h := by
  have hb := hs.blocks
  have hlen := fun j hj => half_length (j := j) (m := numBlocks 4 4 w h) hdata hj
  obtain ⟨E, e1, e2, e3, e4⟩ := palette_atMost (l := 4) hE
    (fun k hk => by rw [List.length_take, hlen k hk]; rfl) hs.pos
  obtain ⟨S, s1, s2, s3, s4⟩ := palette_atMost (l := 4) hS
    (fun k hk => by rw [List.length_drop, hlen k hk]) hs.pos
  have hP : EtcPalettes.Ok ⟨E.map etcFirst, S.map fun s => Unity.transpose (etcSels s), [], []⟩ := {
    ce_ok := fun e he => by obtain ⟨a, _, rfl⟩ := List.mem_map.mp he; exact etcFirst_ok a
    cs_ok := fun e he => by
      obtain ⟨a, ha, rfl⟩ := List.mem_map.mp he; exact transpose_ok (etcSels_spec (s1 a ha)).1
    ae_len := by simp
    as_ok := by simp
    ce_num := by rw [List.length_map]; exact e2
    cs_num := by rw [List.length_map]; exact s2
    ae_num := by simp
    as_num := by simp
    ce_pos := by rw [List.length_map]; exact e3 }
  obtain ⟨file, hU, hL, hw, hh, hf⟩ := etcFile_exists (format := 13) (w := w) (h := h) hP (.inl ⟨rfl, rfl⟩)
    hs.w_lt hs.h_lt rfl (by simp) (by simp) (by rw [hb]; have := hs.blocks_lt; omega)
    (raw := 8) (data := data) (by rw [hb]; exact hdata)
    (fun _ k => (Spec.blockBytes 8 data k).take 4) (fun _ k => (Spec.blockBytes 8 data k).drop 4)
    (by
      intro i p k hp hk
      rw [hb] at hk
      match i, hp with
      | 0, hp =>
        cases hp
        refine List.mem_map.mpr ⟨_, List.mem_map.mpr ⟨_, e4 k hk, rfl⟩, ?_⟩
        exact etcEndpointBytes_one (e1 _ (e4 k hk)) (hone k hk))
    (by
      intro i p k hp hk
      rw [hb] at hk
      match i, hp with
      | 0, hp =>
        cases hp
        refine List.mem_map.mpr ⟨_, List.mem_map.mpr ⟨_, s4 k hk, rfl⟩, ?_⟩
        obtain ⟨k1, k2⟩ := etcSels_spec (s1 _ (s4 k hk))
        rw [transpose_transpose k1.1, k2])
    (by
      intro k _
      simp [List.take_append_drop])
  refine ⟨file, hL.small, hw, hh, hf, fun b hbuild w' h' image => ?_⟩
  rw [@C55_blocks b file data hU hL (columns hs hw hbuild), hf]; rfl

/-- **C86** ETC2 with alpha and one base colour per block: the format code 14. -/
theorem C86_etc2as (hdata : data.length = bytesNeeded 4 4 16 w h)
    (hone : ∀ k, k < numBlocks 4 4 w h → Unity.OneColour ((Spec.blockBytes 8 data (2 * k + 1)).take 4))
    (hAE : Unity.AtMost 8192 (numBlocks 4 4 w h) fun k => (Spec.blockBytes 8 data (2 * k)).take 2)
    (hAS : Unity.AtMost 8192 (numBlocks 4 4 w h) fun k => (Spec.blockBytes 8 data (2 * k)).drop 2)
    (hCE : Unity.AtMost 8192 (numBlocks 4 4 w h) fun k => (Spec.blockBytes 8 data (2 * k + 1)).take 4)
    (hCS : Unity.AtMost 8192 (numBlocks 4 4 w h) fun k => (Spec.blockBytes 8 data (2 * k + 1)).drop 4) :
    Stores (panicFree w) @Model.Crn.Unity.decodeUnityCrunch @Model.decodeEtc2Rgba8 14 data w h := by
  have hb := hs.blocks
  have hd : data.length = 2 * numBlocks 4 4 w h * 8 := by rw [hdata]; unfold bytesNeeded; omega
  have hlen := fun j hj => half_length (j := j) hd hj
  obtain ⟨AE, a1, a2, a3, a4⟩ := palette_atMost (l := 2) hAE
    (fun k hk => by rw [List.length_take, hlen _ (by omega)]; rfl) hs.pos
  obtain ⟨AS, b1, b2, b3, b4⟩ := palette_atMost (l := 6) hAS
    (fun k hk => by rw [List.length_drop, hlen _ (by omega)]) hs.pos
  obtain ⟨CE, c1, c2, c3, c4⟩ := palette_atMost (l := 4) hCE
    (fun k hk => by rw [List.length_take, hlen _ (by omega)]; rfl) hs.pos
  obtain ⟨CS, d1, d2, d3, d4⟩ := palette_atMost (l := 4) hCS
    (fun k hk => by rw [List.length_drop, hlen _ (by omega)]) hs.pos
  have hP : EtcPalettes.Ok ⟨CE.map etcFirst, CS.map fun s => Unity.transpose (etcSels s), AE,
      AS.map fun s => Unity.transpose (eacSels s)⟩ := {
    ce_ok := fun e he => by obtain ⟨a, _, rfl⟩ := List.mem_map.mp he; exact etcFirst_ok a
    cs_ok := fun e he => by
      obtain ⟨a, ha, rfl⟩ := List.mem_map.mp he; exact transpose_ok (etcSels_spec (d1 a ha)).1
    ae_len := a1
    as_ok := fun e he => by
      obtain ⟨a, ha, rfl⟩ := List.mem_map.mp he; exact transpose_ok (eacSels_spec (b1 a ha)).1
    ce_num := by rw [List.length_map]; exact c2
    cs_num := by rw [List.length_map]; exact d2
    ae_num := a2
    as_num := by rw [List.length_map]; exact b2
    ce_pos := by rw [List.length_map]; exact c3 }
  obtain ⟨file, hU, hL, hw, hh, hf⟩ := etcFile_exists (format := 14) (w := w) (h := h) hP
    (.inr ⟨rfl, Nat.pos_iff_ne_zero.mp a3⟩)
    hs.w_lt hs.h_lt rfl (by simp) (by simp) (by rw [hb]; have := hs.blocks_lt; omega)
    (raw := 16) (data := data) (by rw [hb]; exact hdata)
    (fun i k => (Spec.blockBytes 8 data (2 * k + (1 - i))).take (if i = 0 then 4 else 2))
    (fun i k => (Spec.blockBytes 8 data (2 * k + (1 - i))).drop (if i = 0 then 4 else 2))
    (by
      intro i p k hp hk
      rw [hb] at hk
      match i, hp with
      | 0, hp =>
        cases hp
        refine List.mem_map.mpr ⟨_, List.mem_map.mpr ⟨_, c4 k hk, rfl⟩, ?_⟩
        exact etcEndpointBytes_one (c1 _ (c4 k hk)) (hone k hk)
      | 1, hp => cases hp; exact a4 k hk)
    (by
      intro i p k hp hk
      rw [hb] at hk
      match i, hp with
      | 0, hp =>
        cases hp
        refine List.mem_map.mpr ⟨_, List.mem_map.mpr ⟨_, d4 k hk, rfl⟩, ?_⟩
        obtain ⟨k1, k2⟩ := etcSels_spec (d1 _ (d4 k hk))
        rw [transpose_transpose k1.1, k2]; rfl
      | 1, hp =>
        cases hp
        refine List.mem_map.mpr ⟨_, List.mem_map.mpr ⟨_, b4 k hk, rfl⟩, ?_⟩
        obtain ⟨k1, k2⟩ := eacSels_spec (b1 _ (b4 k hk))
        rw [transpose_transpose k1.1, k2]; rfl)
    (by
      intro k _
      rw [block16]
      simp [List.take_append_drop])
  refine ⟨file, hL.small, hw, hh, hf, fun b hbuild w' h' image => ?_⟩
  rw [@C55_blocks b file data hU hL (columns hs hw hbuild), hf]; rfl

/-- The file of C86 for ETC1 and for ETC2 without alpha. -/
theorem etcFile_two (hdata : data.length = bytesNeeded 4 4 8 w h) {format : Nat} (hfmt : format = 10 ∨ format = 11)
    (htwo : ∀ k, k < numBlocks 4 4 w h → Unity.TwoColours ((Spec.blockBytes 8 data k).take 4))
    (hE : Unity.AtMost 4096 (numBlocks 4 4 w h) fun k => (Spec.blockBytes 8 data k).take 4)
    (hS : Unity.AtMost 4096 (numBlocks 4 4 w h) fun k => (Spec.blockBytes 8 data k).drop 4) :
    ∃ file, Unity.unpack file = some data ∧ Limits file ∧ width file = w ∧ height file = h ∧
      Crn.format file = format := by
  have hb := hs.blocks
  have hlen := fun j hj => half_length (j := j) (m := numBlocks 4 4 w h) hdata hj
  have hl4 : ∀ k, k < numBlocks 4 4 w h → ((Spec.blockBytes 8 data k).take 4).length = 4 :=
    fun k hk => by rw [List.length_take, hlen k hk]; rfl
  have hd4 : ∀ k, k < numBlocks 4 4 w h → ((Spec.blockBytes 8 data k).drop 4).length = 4 :=
    fun k hk => by rw [List.length_drop, hlen k hk]
  obtain ⟨E, e1, e2, e3, e4⟩ := palette_atMost hE hl4 hs.pos
  obtain ⟨S, s1, s2, s3, s4⟩ := palette_atMost hS hd4 hs.pos
  have hP : EtcPalettes.Ok ⟨twoColours E, bothWays (S.map etcSels), [], []⟩ := {
    ce_ok := twoColours_ok
    cs_ok := bothWays_ok fun e he => by
      obtain ⟨a, ha, rfl⟩ := List.mem_map.mp he; exact (etcSels_spec (s1 a ha)).1
    ae_len := by simp
    as_ok := by simp
    ce_num := by show (twoColours E).length ≤ _; unfold twoColours; rw [length_pairs]; omega
    cs_num := by
      show (bothWays _).length ≤ _; unfold bothWays; rw [length_pairs (fun s => s), List.length_map]; omega
    ae_num := by simp
    as_num := by simp
    ce_pos := by show 0 < (twoColours E).length; unfold twoColours; rw [length_pairs]; omega }
  refine etcHalfFile_exists (format := format) (w := w) (h := h) hP hfmt rfl
    hs.w_lt hs.h_lt (by rw [hb]; have := hs.blocks_lt; omega) (data := data) (by rw [hb]; exact hdata)
    (fun k => partsOf ((Spec.blockBytes 8 data k).take 4) ((Spec.blockBytes 8 data k).drop 4) [] []) ?_ ?_
  · intro k hk
    rw [hb] at hk
    exact {
      c0 := List.mem_flatMap.mpr ⟨_, e4 k hk, by simp [partsOf]⟩
      c1 := List.mem_flatMap.mpr ⟨_, e4 k hk, by simp [partsOf]⟩
      flip := Nat.mod_lt _ (by decide)
      sel := turned_mem (List.mem_map.mpr ⟨_, s4 k hk, rfl⟩) }
  · intro k hk
    rw [hb] at hk
    rw [partsOf_colour (hl4 k hk) (htwo k hk) (hd4 k hk), List.take_append_drop]

/-- **C86** ETC1: the format code 10. -/
theorem C86_etc1 (hdata : data.length = bytesNeeded 4 4 8 w h)
    (htwo : ∀ k, k < numBlocks 4 4 w h → Unity.TwoColours ((Spec.blockBytes 8 data k).take 4))
    (hE : Unity.AtMost 4096 (numBlocks 4 4 w h) fun k => (Spec.blockBytes 8 data k).take 4)
    (hS : Unity.AtMost 4096 (numBlocks 4 4 w h) fun k => (Spec.blockBytes 8 data k).drop 4) :
    Stores (panicFree w) @Model.Crn.Unity.decodeUnityCrunch @Model.decodeEtc1 10 data w h := by
  obtain ⟨file, hU, hL, hw, hh, hf⟩ := etcFile_two w h hs data hdata (.inl rfl) htwo hE hS
  refine ⟨file, hL.small, hw, hh, hf, fun b hbuild w' h' image => ?_⟩
  rw [@C55_blocks b file data hU hL (columns hs hw hbuild), hf]; rfl

/-- **C86** ETC2 without alpha: the format code 11. -/
theorem C86_etc2 (hdata : data.length = bytesNeeded 4 4 8 w h)
    (htwo : ∀ k, k < numBlocks 4 4 w h → Unity.TwoColours ((Spec.blockBytes 8 data k).take 4))
    (hE : Unity.AtMost 4096 (numBlocks 4 4 w h) fun k => (Spec.blockBytes 8 data k).take 4)
    (hS : Unity.AtMost 4096 (numBlocks 4 4 w h) fun k => (Spec.blockBytes 8 data k).drop 4) :
    Stores (panicFree w) @Model.Crn.Unity.decodeUnityCrunch @Model.decodeEtc2Rgb 11 data w h := by
  obtain ⟨file, hU, hL, hw, hh, hf⟩ := etcFile_two w h hs data hdata (.inr rfl) htwo hE hS
  refine ⟨file, hL.small, hw, hh, hf, fun b hbuild w' h' image => ?_⟩
  rw [@C55_blocks b file data hU hL (columns hs hw hbuild), hf]; rfl

/-- **C86** ETC2 with alpha: the format code 12. -/
theorem C86_etc2a (hdata : data.length = bytesNeeded 4 4 16 w h)
    (htwo : ∀ k, k < numBlocks 4 4 w h → Unity.TwoColours ((Spec.blockBytes 8 data (2 * k + 1)).take 4))
    (hAE : Unity.AtMost 8192 (numBlocks 4 4 w h) fun k => (Spec.blockBytes 8 data (2 * k)).take 2)
    (hAS : Unity.AtMost 4096 (numBlocks 4 4 w h) fun k => (Spec.blockBytes 8 data (2 * k)).drop 2)
    (hCE : Unity.AtMost 4096 (numBlocks 4 4 w h) fun k => (Spec.blockBytes 8 data (2 * k + 1)).take 4)
    (hCS : Unity.AtMost 4096 (numBlocks 4 4 w h) fun k => (Spec.blockBytes 8 data (2 * k + 1)).drop 4) :
    Stores (panicFree w) @Model.Crn.Unity.decodeUnityCrunch @Model.decodeEtc2Rgba8 12 data w h := by
  have hb := hs.blocks
  have hd : data.length = 2 * numBlocks 4 4 w h * 8 := by rw [hdata]; unfold bytesNeeded; omega
  have hlen := fun j hj => half_length (j := j) hd hj
  have hl4 : ∀ k, k < numBlocks 4 4 w h → ((Spec.blockBytes 8 data (2 * k + 1)).take 4).length = 4 :=
    fun k hk => by rw [List.length_take, hlen _ (by omega)]; rfl
  have hd4 : ∀ k, k < numBlocks 4 4 w h → ((Spec.blockBytes 8 data (2 * k + 1)).drop 4).length = 4 :=
    fun k hk => by rw [List.length_drop, hlen _ (by omega)]
  have hl6 : ∀ k, k < numBlocks 4 4 w h → ((Spec.blockBytes 8 data (2 * k)).drop 2).length = 6 :=
    fun k hk => by rw [List.length_drop, hlen _ (by omega)]
  obtain ⟨AE, a1, a2, a3, a4⟩ := palette_atMost (l := 2) hAE
    (fun k hk => by rw [List.length_take, hlen _ (by omega)]; rfl) hs.pos
  obtain ⟨AS, b1, b2, b3, b4⟩ := palette_atMost hAS hl6 hs.pos
  obtain ⟨CE, c1, c2, c3, c4⟩ := palette_atMost hCE hl4 hs.pos
  obtain ⟨CS, d1, d2, d3, d4⟩ := palette_atMost hCS hd4 hs.pos
  have hP : EtcPalettes.Ok ⟨twoColours CE, bothWays (CS.map etcSels), AE, bothWays (AS.map eacSels)⟩ := {
    ce_ok := twoColours_ok
    cs_ok := bothWays_ok fun e he => by
      obtain ⟨a, ha, rfl⟩ := List.mem_map.mp he; exact (etcSels_spec (d1 a ha)).1
    ae_len := a1
    as_ok := bothWays_ok fun e he => by
      obtain ⟨a, ha, rfl⟩ := List.mem_map.mp he; exact (eacSels_spec (b1 a ha)).1
    ce_num := by show (twoColours CE).length ≤ _; unfold twoColours; rw [length_pairs]; omega
    cs_num := by
      show (bothWays _).length ≤ _; unfold bothWays; rw [length_pairs (fun s => s), List.length_map]; omega
    ae_num := a2
    as_num := by
      show (bothWays _).length ≤ _; unfold bothWays; rw [length_pairs (fun s => s), List.length_map]; omega
    ce_pos := by show 0 < (twoColours CE).length; unfold twoColours; rw [length_pairs]; omega }
  obtain ⟨file, hU, hL, hw, hh, hf⟩ := etcAlphaFile_exists (w := w) (h := h) hP (Nat.pos_iff_ne_zero.mp a3)
    hs.w_lt hs.h_lt (by rw [hb]; have := hs.blocks_lt; omega) (data := data) (by rw [hb]; exact hdata)
    (fun k => partsOf ((Spec.blockBytes 8 data (2 * k + 1)).take 4) ((Spec.blockBytes 8 data (2 * k + 1)).drop 4)
      ((Spec.blockBytes 8 data (2 * k)).take 2) ((Spec.blockBytes 8 data (2 * k)).drop 2))
    (by
      intro k hk
      rw [hb] at hk
      exact ⟨{
        c0 := List.mem_flatMap.mpr ⟨_, c4 k hk, by simp [partsOf]⟩
        c1 := List.mem_flatMap.mpr ⟨_, c4 k hk, by simp [partsOf]⟩
        flip := Nat.mod_lt _ (by decide)
        sel := turned_mem (List.mem_map.mpr ⟨_, d4 k hk, rfl⟩) },
        { alpha := a4 k hk, asel := turned_mem (List.mem_map.mpr ⟨_, b4 k hk, rfl⟩) }⟩)
    (by
      intro k hk
      rw [hb] at hk
      rw [partsOf_colour (hl4 k hk) (htwo k hk) (hd4 k hk), partsOf_alpha (hl6 k hk), List.take_append_drop,
        List.take_append_drop, block16])
  refine ⟨file, hL.small, hw, hh, hf, fun b hbuild w' h' image => ?_⟩
  rw [@C55_blocks b file data hU hL (columns hs hw hbuild), hf]; rfl

omit hs in
/-- **C86** In textures of at most 4096 blocks the numbers of different parts do not matter. -/
theorem C86_small (hw : 0 < w) (hh : 0 < h) (hw' : w < 65536) (hh' : h < 65536)
    (hn : numBlocks 4 4 w h ≤ 4096) :
    (data.length = bytesNeeded 4 4 8 w h →
      (∀ k, k < numBlocks 4 4 w h → Unity.TwoColours ((Spec.blockBytes 8 data k).take 4)) →
      Stores (panicFree w) @Model.Crn.Unity.decodeUnityCrunch @Model.decodeEtc1 10 data w h ∧
      Stores (panicFree w) @Model.Crn.Unity.decodeUnityCrunch @Model.decodeEtc2Rgb 11 data w h) ∧
    (data.length = bytesNeeded 4 4 16 w h →
      (∀ k, k < numBlocks 4 4 w h → Unity.TwoColours ((Spec.blockBytes 8 data (2 * k + 1)).take 4)) →
      Stores (panicFree w) @Model.Crn.Unity.decodeUnityCrunch @Model.decodeEtc2Rgba8 12 data w h) := by
  have hs : Sizes w h := ⟨hw, hh, hw', hh', by omega⟩
  refine ⟨fun hd ht => ⟨?_, ?_⟩, fun hd ht => ?_⟩
  · exact C86_etc1 w h hs data hd ht (atMost_of_le _ hn) (atMost_of_le _ hn)
  · exact C86_etc2 w h hs data hd ht (atMost_of_le _ hn) (atMost_of_le _ hn)
  · exact C86_etc2a w h hs data hd ht (atMost_of_le _ (by omega)) (atMost_of_le _ hn) (atMost_of_le _ hn)
      (atMost_of_le _ hn)

end

/- A texture of 8 × 4 texels with a block in individual mode and one in differential mode, in all builds. -/
example : Stores everyBuild @Model.Crn.Unity.decodeUnityCrunch @Model.decodeEtc1 10
    [0x2f, 0x77, 0x12, 0x59, 1, 2, 3, 4, 0x81, 0x47, 0xfc, 0xb3, 0xff, 0xa0, 0x37, 0x99] 8 4 := by
  obtain ⟨file, h1, h2, h3, h4, h5⟩ :=
    ((C86_small 8 4 [0x2f, 0x77, 0x12, 0x59, 1, 2, 3, 4, 0x81, 0x47, 0xfc, 0xb3, 0xff, 0xa0, 0x37, 0x99]
      (by decide) (by decide) (by decide) (by decide) (by decide)).1 (by decide) (by decide)).1
  exact ⟨file, h1, h2, h3, h4, fun b _ => h5 b (Or.inr (by decide))⟩

/- A texture of 8 × 4 texels with two blocks of one base colour each. -/
example : Stores everyBuild @Model.Crn.Unity.decodeUnityCrunch @Model.decodeEtc1 13
    [0x28, 0x70, 0x10, 0x4a, 1, 2, 3, 4, 0x80, 0x40, 0xf8, 0xb6, 0xff, 0xa0, 0x37, 0x99] 8 4 := by
  obtain ⟨file, h1, h2, h3, h4, h5⟩ :=
    C86_etc1s 8 4 ⟨by decide, by decide, by decide, by decide, by decide⟩
      [0x28, 0x70, 0x10, 0x4a, 1, 2, 3, 4, 0x80, 0x40, 0xf8, 0xb6, 0xff, 0xa0, 0x37, 0x99]
      (by decide) (by decide) (atMost_of_le _ (by decide)) (atMost_of_le _ (by decide))
  exact ⟨file, h1, h2, h3, h4, fun b _ => h5 b (Or.inr (by decide))⟩

/- With alpha: one block of one base colour, and one block of two. -/
example :
    Stores (panicFree 4) @Model.Crn.Unity.decodeUnityCrunch @Model.decodeEtc2Rgba8 14
      [0x28, 0x71, 1, 2, 3, 4, 5, 6, 0x28, 0x70, 0x10, 0x4a, 1, 2, 3, 4] 4 4 ∧
    Stores (panicFree 4) @Model.Crn.Unity.decodeUnityCrunch @Model.decodeEtc2Rgba8 12
      [0x28, 0x71, 1, 2, 3, 4, 5, 6, 0x2f, 0x77, 0x12, 0x59, 1, 2, 3, 4] 4 4 :=
  ⟨C86_etc2as 4 4 ⟨by decide, by decide, by decide, by decide, by decide⟩ _ (by decide) (by decide)
      (atMost_of_le _ (by decide)) (atMost_of_le _ (by decide)) (atMost_of_le _ (by decide)) (atMost_of_le _ (by decide)),
    (C86_small 4 4 _ (by decide) (by decide) (by decide) (by decide) (by decide)).2 (by decide) (by decide)⟩

end Verif.Props
