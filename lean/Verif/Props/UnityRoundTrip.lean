import Verif.Props.CrnRoundTrip
import Verif.Props.UnityCrunch
import Verif.Proofs.Crn.WriteUnityFile
import Verif.Proofs.Crn.UnityOddAny

/-!
# Block data in files of Unity's variant of Crunch (C83)

What C82 says about Crunch files, for `decode_unity_crunch`. It is false for textures with an odd number
of block columns in builds with overflow checks: no file of such a texture can be decoded there.
-/

namespace Verif.Props

open Verif Verif.Spec Verif.Spec.Crn Verif.Proofs.Crn Verif.Proofs.Crn.Enc RoundTrip

/-- **C44, for all files.** In a build with overflow checks `decode_unity_crunch` succeeds for no file
with an odd number of block columns, whatever the file holds. -/
theorem C44_never_decoded (file : List UInt8) (hsmall : file.length < 2 ^ 32)
    (hodd : blocksX file % 2 = 1) (w h : Nat) (image image' : List UInt32) :
    @Model.Crn.Unity.decodeUnityCrunch Build.debug file w h image ≠ .ok (.ok (), image') := by
  letI := Build.debug
  intro e
  obtain ⟨h74, hhb, hok, hf⟩ := C58_accepted file hsmall w h image image' e
  unfold Model.Crn.Unity.decodeUnityCrunch at e
  rw [show asU 32 file.length = file.length from Nat.mod_eq_of_lt hsmall] at e
  have key := Unity.unityCrunchUnpackLevel_odd h74 hhb hok hf rfl hodd
  cases er : Model.Crn.Unity.unityCrunchUnpackLevel file file.length 0 with
  | panic => rw [er] at e; cases e
  | fail m => rw [er] at e; simp at e
  | ok r => exact key r er

example : UnityDemo.uOdd.length < 2 ^ 32 ∧ blocksX UnityDemo.uOdd % 2 = 1 :=
  ⟨by decide +kernel, by decide +kernel⟩

theorem columns {file : List UInt8} {w h : Nat} (hs : Sizes w h) (hw : width file = w) {b : Build}
    (hb : panicFree w b) : b.overflowChecks = false ∨ blocksX file % 2 = 0 := by
  have : blocksX file = ceilDiv w 4 := by
    unfold blocksX blocksOf ceilDiv
    rw [hw, Nat.max_eq_left hs.w_pos]; rfl
  rw [this]
  exact hb

/-- **C83, violated.** No data of a BC1 texture with an odd number of block columns can be stored for
builds with overflow checks. -/
theorem C83_violated (w h : Nat) (hs : Sizes w h) (hodd : ceilDiv w 4 % 2 = 1) (data : List UInt8)
    (hdata : data.length = bytesNeeded 4 4 8 w h) :
    ¬ Stores everyBuild @Model.Crn.Unity.decodeUnityCrunch @Model.decodeBc1 0 data w h := by
  rintro ⟨file, hsmall, hw, _, _, heq⟩
  have hx : blocksX file % 2 = 1 := by
    have : blocksX file = ceilDiv w 4 := by
      unfold blocksX blocksOf ceilDiv
      rw [hw, Nat.max_eq_left hs.w_pos]; rfl
    rw [this]; exact hodd
  letI := Build.debug
  have hwh : w * h < 2 ^ 32 := by
    have := Nat.mul_lt_mul'' hs.w_lt hs.h_lt
    omega
  have hn := hs.blocks_lt
  obtain ⟨image', e, _⟩ := C12_bc1.success data w h (List.replicate (w * h) 0)
    ⟨by rw [List.length_replicate]; omega, by unfold bytesNeeded; omega, by omega⟩ (by omega) (by simp) (by intro k _; trivial)
  have := heq Build.debug trivial w h (List.replicate (w * h) 0)
  rw [e] at this
  exact C44_never_decoded file hsmall hx w h _ _ this

/- A texture of 12 × 8 texels has three block columns. -/
example : Sizes 12 8 ∧ ceilDiv 12 4 % 2 = 1 ∧ (List.replicate 48 (0 : UInt8)).length = bytesNeeded 4 4 8 12 8 :=
  ⟨⟨by decide, by decide, by decide, by decide, by decide⟩, by decide, by decide⟩

section
variable (w h : Nat) (hs : Sizes w h) (data : List UInt8)
include hs

/-- **C83** BC1. -/
theorem C83_bc1_partial (hdata : data.length = bytesNeeded 4 4 8 w h)
    (hE : FewKinds (numBlocks 4 4 w h) fun k => (Spec.blockBytes 8 data k).take 4)
    (hS : FewKinds (numBlocks 4 4 w h) fun k => (Spec.blockBytes 8 data k).drop 4) :
    Stores (panicFree w) @Model.Crn.Unity.decodeUnityCrunch @Model.decodeBc1 0 data w h := by
  have hb := hs.blocks
  have hlen := fun j hj => half_length (j := j) (m := numBlocks 4 4 w h) hdata hj
  obtain ⟨E, e1, e2, e3, e4⟩ := palette_of (m := 4) hE
    (fun k hk => by rw [List.length_take, hlen k hk]; rfl) hs.pos
  obtain ⟨S, s1, s2, s3, s4⟩ := palette_of (m := 4) hS
    (fun k hk => by rw [List.length_drop, hlen k hk]) hs.pos
  obtain ⟨file, hU, hL, hw, hh, hf⟩ := unityFile_exists (format := 0) (w := w) (h := h)
    (P := ⟨E, S, zeros 2, zeros 6⟩)
    ⟨e1, s1, by simp [zeros], by simp [zeros], e2, s2, by simp [zeros], by simp [zeros], e3, by simp [zeros]⟩
    (by omega) hs.w_lt hs.h_lt rfl (by simp) (by simp) (by rw [hb]; have := hs.blocks_lt; omega)
    (raw := 8) (data := data) (by rw [hb]; exact hdata)
    (fun _ k => (Spec.blockBytes 8 data k).take 4) (fun _ k => (Spec.blockBytes 8 data k).drop 4)
    (by
      intro i p k hp hk
      match i, hp with
      | 0, hp => cases hp; exact e4 k (hb ▸ hk))
    (by
      intro i p k hp hk
      match i, hp with
      | 0, hp => cases hp; exact s4 k (hb ▸ hk))
    (by
      intro k _
      simp [List.take_append_drop])
  refine ⟨file, hL.small, hw, hh, hf, fun b hbuild w' h' image => ?_⟩
  rw [@C55_blocks b file data hU hL (columns hs hw hbuild), hf]; rfl

/-- **C83** BC4. -/
theorem C83_bc4_partial (hdata : data.length = bytesNeeded 4 4 8 w h)
    (hE : FewKinds (numBlocks 4 4 w h) fun k => (Spec.blockBytes 8 data k).take 2)
    (hS : FewKinds (numBlocks 4 4 w h) fun k => (Spec.blockBytes 8 data k).drop 2) :
    Stores (panicFree w) @Model.Crn.Unity.decodeUnityCrunch @Model.decodeBc4 9 data w h := by
  have hb := hs.blocks
  have hlen := fun j hj => half_length (j := j) (m := numBlocks 4 4 w h) hdata hj
  obtain ⟨E, e1, e2, e3, e4⟩ := palette_of (m := 2) hE
    (fun k hk => by rw [List.length_take, hlen k hk]; rfl) hs.pos
  obtain ⟨S, s1, s2, s3, s4⟩ := palette_of (m := 6) hS
    (fun k hk => by rw [List.length_drop, hlen k hk]) hs.pos
  obtain ⟨file, hU, hL, hw, hh, hf⟩ := unityFile_exists (format := 9) (w := w) (h := h)
    (P := ⟨zeros 4, zeros 4, E, S⟩)
    ⟨by simp [zeros], by simp [zeros], e1, s1, by simp [zeros], by simp [zeros], e2, s2, by simp [zeros], e3⟩
    (by omega) hs.w_lt hs.h_lt rfl (by simp) (by simp) (by rw [hb]; have := hs.blocks_lt; omega)
    (raw := 8) (data := data) (by rw [hb]; exact hdata)
    (fun _ k => (Spec.blockBytes 8 data k).take 2) (fun _ k => (Spec.blockBytes 8 data k).drop 2)
    (by
      intro i p k hp hk
      match i, hp with
      | 0, hp => cases hp; exact e4 k (hb ▸ hk))
    (by
      intro i p k hp hk
      match i, hp with
      | 0, hp => cases hp; exact s4 k (hb ▸ hk))
    (by
      intro k _
      simp [List.take_append_drop])
  refine ⟨file, hL.small, hw, hh, hf, fun b hbuild w' h' image => ?_⟩
  rw [@C55_blocks b file data hU hL (columns hs hw hbuild), hf]; rfl

/-- **C83** BC3: the first half of a block has the alpha values, the second one the colours. -/
theorem C83_bc3_partial (hdata : data.length = bytesNeeded 4 4 16 w h)
    (hAE : FewKinds (numBlocks 4 4 w h) fun k => (Spec.blockBytes 8 data (2 * k)).take 2)
    (hAS : FewKinds (numBlocks 4 4 w h) fun k => (Spec.blockBytes 8 data (2 * k)).drop 2)
    (hCE : FewKinds (numBlocks 4 4 w h) fun k => (Spec.blockBytes 8 data (2 * k + 1)).take 4)
    (hCS : FewKinds (numBlocks 4 4 w h) fun k => (Spec.blockBytes 8 data (2 * k + 1)).drop 4) :
    Stores (panicFree w) @Model.Crn.Unity.decodeUnityCrunch @Model.decodeBc3 2 data w h := by
  have hb := hs.blocks
  have hd : data.length = 2 * numBlocks 4 4 w h * 8 := by rw [hdata]; unfold bytesNeeded; omega
  have hlen := fun j hj => half_length (j := j) hd hj
  obtain ⟨AE, a1, a2, a3, a4⟩ := palette_of (m := 2) hAE
    (fun k hk => by rw [List.length_take, hlen _ (by omega)]; rfl) hs.pos
  obtain ⟨AS, b1, b2, b3, b4⟩ := palette_of (m := 6) hAS
    (fun k hk => by rw [List.length_drop, hlen _ (by omega)]) hs.pos
  obtain ⟨CE, c1, c2, c3, c4⟩ := palette_of (m := 4) hCE
    (fun k hk => by rw [List.length_take, hlen _ (by omega)]; rfl) hs.pos
  obtain ⟨CS, d1, d2, d3, d4⟩ := palette_of (m := 4) hCS
    (fun k hk => by rw [List.length_drop, hlen _ (by omega)]) hs.pos
  obtain ⟨file, hU, hL, hw, hh, hf⟩ := unityFile_exists (format := 2) (w := w) (h := h)
    (P := ⟨CE, CS, AE, AS⟩) ⟨c1, d1, a1, b1, c2, d2, a2, b2, c3, a3⟩
    (by omega) hs.w_lt hs.h_lt rfl (by simp) (by simp) (by rw [hb]; have := hs.blocks_lt; omega)
    (raw := 16) (data := data) (by rw [hb]; exact hdata)
    (fun i k => (Spec.blockBytes 8 data (2 * k + (1 - i))).take (if i = 0 then 4 else 2))
    (fun i k => (Spec.blockBytes 8 data (2 * k + (1 - i))).drop (if i = 0 then 4 else 2))
    (by
      intro i p k hp hk
      match i, hp with
      | 0, hp => cases hp; exact c4 k (hb ▸ hk)
      | 1, hp => cases hp; exact a4 k (hb ▸ hk))
    (by
      intro i p k hp hk
      match i, hp with
      | 0, hp => cases hp; exact d4 k (hb ▸ hk)
      | 1, hp => cases hp; exact b4 k (hb ▸ hk))
    (by
      intro k _
      rw [block16]
      simp [List.take_append_drop])
  refine ⟨file, hL.small, hw, hh, hf, fun b hbuild w' h' image => ?_⟩
  rw [@C55_blocks b file data hU hL (columns hs hw hbuild), hf]; rfl

/-- **C83** BC5: both halves of a block use the same palettes. -/
theorem C83_bc5_partial (hdata : data.length = bytesNeeded 4 4 16 w h)
    (hE : FewKinds (2 * numBlocks 4 4 w h) fun j => (Spec.blockBytes 8 data j).take 2)
    (hS : FewKinds (2 * numBlocks 4 4 w h) fun j => (Spec.blockBytes 8 data j).drop 2) :
    Stores (panicFree w) @Model.Crn.Unity.decodeUnityCrunch @Model.decodeBc5 7 data w h := by
  have hb := hs.blocks
  have hpos := hs.pos
  have hd : data.length = 2 * numBlocks 4 4 w h * 8 := by rw [hdata]; unfold bytesNeeded; omega
  have hlen := fun j hj => half_length (j := j) hd hj
  obtain ⟨E, e1, e2, e3, e4⟩ := palette_of (m := 2) hE
    (fun k hk => by rw [List.length_take, hlen k hk]; rfl) (by omega)
  obtain ⟨S, s1, s2, s3, s4⟩ := palette_of (m := 6) hS
    (fun k hk => by rw [List.length_drop, hlen k hk]) (by omega)
  obtain ⟨file, hU, hL, hw, hh, hf⟩ := unityFile_exists (format := 7) (w := w) (h := h)
    (P := ⟨zeros 4, zeros 4, E, S⟩)
    ⟨by simp [zeros], by simp [zeros], e1, s1, by simp [zeros], by simp [zeros], e2, s2, by simp [zeros], e3⟩
    (by omega) hs.w_lt hs.h_lt rfl (by simp) (by simp) (by rw [hb]; have := hs.blocks_lt; omega)
    (raw := 16) (data := data) (by rw [hb]; exact hdata)
    (fun i k => (Spec.blockBytes 8 data (2 * k + i)).take 2)
    (fun i k => (Spec.blockBytes 8 data (2 * k + i)).drop 2)
    (by
      intro i p k hp hk
      rw [hb] at hk
      match i, hp with
      | 0, hp => cases hp; exact e4 (2 * k + 0) (by omega)
      | 1, hp => cases hp; exact e4 (2 * k + 1) (by omega))
    (by
      intro i p k hp hk
      rw [hb] at hk
      match i, hp with
      | 0, hp => cases hp; exact s4 (2 * k + 0) (by omega)
      | 1, hp => cases hp; exact s4 (2 * k + 1) (by omega))
    (by
      intro k _
      rw [block16]
      simp [List.take_append_drop])
  refine ⟨file, hL.small, hw, hh, hf, fun b hbuild w' h' image => ?_⟩
  rw [@C55_blocks b file data hU hL (columns hs hw hbuild), hf]; rfl

omit hs in
/-- **C83** Textures of at most 8192 blocks, 4096 for BC5, can be stored whatever their data are. -/
theorem C83_small_partial (hw : 0 < w) (hh : 0 < h) (hw' : w < 65536) (hh' : h < 65536)
    (hn : numBlocks 4 4 w h ≤ 8192) :
    (data.length = bytesNeeded 4 4 8 w h →
      Stores (panicFree w) @Model.Crn.Unity.decodeUnityCrunch @Model.decodeBc1 0 data w h ∧
      Stores (panicFree w) @Model.Crn.Unity.decodeUnityCrunch @Model.decodeBc4 9 data w h) ∧
    (data.length = bytesNeeded 4 4 16 w h →
      Stores (panicFree w) @Model.Crn.Unity.decodeUnityCrunch @Model.decodeBc3 2 data w h ∧
      (numBlocks 4 4 w h ≤ 4096 → Stores (panicFree w) @Model.Crn.Unity.decodeUnityCrunch @Model.decodeBc5 7 data w h)) := by
  have hs : Sizes w h := ⟨hw, hh, hw', hh', by omega⟩
  refine ⟨fun hd => ⟨?_, ?_⟩, fun hd => ⟨?_, fun h4 => ?_⟩⟩
  · exact C83_bc1_partial w h hs data hd (fewKinds_of_le _ hn) (fewKinds_of_le _ hn)
  · exact C83_bc4_partial w h hs data hd (fewKinds_of_le _ hn) (fewKinds_of_le _ hn)
  · exact C83_bc3_partial w h hs data hd (fewKinds_of_le _ hn) (fewKinds_of_le _ hn) (fewKinds_of_le _ hn)
      (fewKinds_of_le _ hn)
  · exact C83_bc5_partial w h hs data hd (fewKinds_of_le _ (by omega)) (fewKinds_of_le _ (by omega))

end

/- A texture of 16 × 6 texels, eight blocks that are all different, and all builds. -/
example : Stores everyBuild @Model.Crn.Unity.decodeUnityCrunch @Model.decodeBc1 0
    ((List.range 64).map UInt8.ofNat) 16 6 := by
  obtain ⟨file, h1, h2, h3, h4, h5⟩ :=
    ((C83_small_partial 16 6 ((List.range 64).map UInt8.ofNat) (by decide) (by decide) (by decide) (by decide)
      (by decide)).1 (by decide)).1
  exact ⟨file, h1, h2, h3, h4, fun b _ => h5 b (Or.inr (by decide))⟩

end Verif.Props
