import Verif.Proofs.Crn.Memory
import Verif.Props.CrnTruncated

/-!
# The memory that Crunch files ask for (C76)

`Model.Crn.bufferBytes file` is the number of bytes `decode_crunch` allocates for the blocks of the
texture, `Model.Crn.Unity.bufferBytes file` that of `decode_unity_crunch`.
-/

namespace Verif.Props

open Verif Verif.Spec.Crn Verif.Proofs.Crn

/-- The demo file with two faces, whose header says 65535 × 65535 texels and 255 faces. -/
def crnHuge : List UInt8 :=
  ((((CrnDemo.crnFaces.set 12 255).set 13 255).set 14 255).set 15 255).set 17 255

/-- The same for Unity's variant. -/
def unityHuge : List UInt8 :=
  ((((UnityDemo.uFaces.set 12 255).set 13 255).set 14 255).set 15 255).set 17 255

/-- **C76, violated.** A file of 151 bytes lets `decode_crunch` allocate more than 500 gigabytes, in both
builds, whatever the size of the image. -/
theorem C76_crunch_violated : ∃ file, file.length = 151 ∧ dataSize file = file.length ∧
    ∀ b : Build, @Model.Crn.bufferBytes b file = .ok 547608330240 := by
  refine ⟨crnHuge, by decide +kernel, by decide +kernel, fun ⟨ck⟩ => ?_⟩
  revert ck
  decide +kernel

/-- **C76, violated.** Every file for `decode_unity_crunch` (of a format without sub-blocks) whose codes
and palettes can be read gets the buffer that its header describes, whatever the level holds. -/
theorem C76_unity_crunch_always [Build] (file : List UInt8) (cs : Codes) (colour alpha : Plane)
    (hformat : format file = 0 ∨ (2 ≤ format file ∧ format file ≤ 9) ∨ format file = 13 ∨ format file = 14)
    (hheader : HeaderOk file file.length) (hlevels : 0 < levels file)
    (hlong : headerBytes file ≤ file.length) (hsmall : file.length < 2 ^ 32)
    (hsections : SectionsInside file)
    (hfits : bytesPerBlock (format file) * (blocksY file * blocksX file) < 2 ^ 32)
    (hcodes : fileCodes file = some cs) (hcolour : Spec.Crn.Unity.colourPlane file cs = some colour)
    (halpha : Spec.Crn.Unity.alphaPlane file cs = some alpha)
    (hlevel : levelOfs file 0 < levelEnd file) (hinside : levelOfs file 0 ≤ file.length) :
    Model.Crn.Unity.bufferBytes file
      = .ok (bytesPerBlock (format file) * (faces file * blocksY file * blocksX file)) :=
  uBufferBytes_sections (by simp [Model.Crn.Unity.hasSubblocks]; omega) hheader hlevels hlong hsmall hsections
    hfits hcodes hcolour halpha (by unfold Unity.Known; omega) hlevel hinside

/-- **C76, violated.** A file of 159 bytes lets `decode_unity_crunch` allocate as much. -/
theorem C76_unity_crunch_violated : ∃ file, file.length = 159 ∧ dataSize file = file.length ∧
    ∀ b : Build, @Model.Crn.Unity.bufferBytes b file = .ok 547608330240 := by
  have hc : (fileCodes unityHuge).isSome := by decide +kernel
  obtain ⟨cs, hcs⟩ := Option.isSome_iff_exists.1 hc
  have h2 : ((fileCodes unityHuge).bind (Spec.Crn.Unity.colourPlane unityHuge)).isSome := by decide +kernel
  have h3 : ((fileCodes unityHuge).bind (Spec.Crn.Unity.alphaPlane unityHuge)).isSome := by decide +kernel
  rw [hcs, Option.bind_some] at h2 h3
  obtain ⟨colour, hcolour⟩ := Option.isSome_iff_exists.1 h2
  obtain ⟨alpha, halpha⟩ := Option.isSome_iff_exists.1 h3
  refine ⟨unityHuge, by decide +kernel, by decide +kernel, fun b => ?_⟩
  rw [C76_unity_crunch_always unityHuge cs colour alpha (by decide +kernel) (by decide +kernel)
    (by decide +kernel) (by decide +kernel) (by decide +kernel)
    ⟨by decide +kernel, by decide +kernel, by decide +kernel⟩ (by decide +kernel) hcs hcolour halpha
    (by decide +kernel) (by decide +kernel)]
  exact congrArg Res.ok (by decide +kernel)

/-- **C76, violated.** The same for formats with sub-blocks (ETC1, ETC2 and ETC2A). -/
theorem C76_unity_crunch_always_etc [Build] (file : List UInt8) (cs : Codes)
    (colours : List Spec.Crn.Unity.EtcColour) (selectors : List (List Nat))
    (hformat : format file = 10 ∨ format file = 11 ∨ format file = 12)
    (hheader : HeaderOk file file.length) (hlevels : 0 < levels file)
    (hlong : headerBytes file ≤ file.length) (hsmall : file.length < 2 ^ 32)
    (hsections : SectionsInside file)
    (hfits : bytesPerBlock (format file) * (blocksY file * blocksX file) < 2 ^ 32)
    (hcodes : fileCodes file = some cs) (hnum : (colorEndpoints file).num ≠ 0)
    (hcolours : readSection file (colorEndpoints file).ofs (colorEndpoints file).size
      (Spec.Crn.Unity.etcColours (colorEndpoints file).num) = some colours)
    (hselectors : readSection file (colorSelectors file).ofs (colorSelectors file).size
      (Spec.Crn.Unity.selectorEntries 4 (colorSelectors file).num) = some selectors)
    (halpha : (alphaEndpoints file).num = 0 ∨ (format file = 12 ∧
      (∃ alphas, filePalette file (alphaEndpoints file) alphaEndpointPalette = some alphas) ∧
      ∃ s, readSection file (alphaSelectors file).ofs (alphaSelectors file).size
        (Spec.Crn.Unity.selectorEntries 8 (alphaSelectors file).num) = some s))
    (hlevel : levelOfs file 0 < levelEnd file) (hinside : levelOfs file 0 ≤ file.length) :
    Model.Crn.Unity.bufferBytes file
      = .ok (bytesPerBlock (format file) * (faces file * blocksY file * blocksX file)) :=
  uBufferBytes_halves hformat hheader hlevels hlong hsmall hsections hfits hcodes hnum hcolours hselectors
    halpha hlevel hinside

/-- The demo file with ETC2A blocks, whose header says 65535 × 65532 texels and 255 faces. -/
def unityEtcHuge : List UInt8 :=
  ((((UnityDemo.uEtc2a.set 12 255).set 13 255).set 14 255).set 15 252).set 17 255

/- It meets the hypotheses. -/
example : ∀ b : Build, @Model.Crn.Unity.bufferBytes b unityEtcHuge
    = .ok (16 * (255 * 16383 * 16384)) := by
  have hc : (fileCodes unityEtcHuge).isSome := by decide +kernel
  obtain ⟨cs, hcs⟩ := Option.isSome_iff_exists.1 hc
  have h1 : (readSection unityEtcHuge (colorEndpoints unityEtcHuge).ofs (colorEndpoints unityEtcHuge).size
    (Spec.Crn.Unity.etcColours (colorEndpoints unityEtcHuge).num)).isSome := by decide +kernel
  have h2 : (readSection unityEtcHuge (colorSelectors unityEtcHuge).ofs (colorSelectors unityEtcHuge).size
    (Spec.Crn.Unity.selectorEntries 4 (colorSelectors unityEtcHuge).num)).isSome := by decide +kernel
  have h3 : (filePalette unityEtcHuge (alphaEndpoints unityEtcHuge) alphaEndpointPalette).isSome := by
    decide +kernel
  have h4 : (readSection unityEtcHuge (alphaSelectors unityEtcHuge).ofs (alphaSelectors unityEtcHuge).size
    (Spec.Crn.Unity.selectorEntries 8 (alphaSelectors unityEtcHuge).num)).isSome := by decide +kernel
  obtain ⟨colours, hcolours⟩ := Option.isSome_iff_exists.1 h1
  obtain ⟨selectors, hselectors⟩ := Option.isSome_iff_exists.1 h2
  intro b
  rw [C76_unity_crunch_always_etc unityEtcHuge cs colours selectors (by decide +kernel) (by decide +kernel)
    (by decide +kernel) (by decide +kernel) (by decide +kernel)
    ⟨by decide +kernel, by decide +kernel, by decide +kernel⟩ (by decide +kernel) hcs (by decide +kernel)
    hcolours hselectors (Or.inr ⟨by decide +kernel, Option.isSome_iff_exists.1 h3,
      Option.isSome_iff_exists.1 h4⟩) (by decide +kernel) (by decide +kernel)]
  have : bytesPerBlock (format unityEtcHuge) * (faces unityEtcHuge * blocksY unityEtcHuge *
    blocksX unityEtcHuge) = 16 * (255 * 16383 * 16384) := by decide +kernel
  rw [this]

/-- **C76** What `bufferBytes` has to do with `decode_crunch`: if it ends before the allocation, so does
`decode_crunch`; if the blocks are unpacked, its value is their number of bytes. -/
theorem C76_crunch_buffer [Build] (file : List UInt8) (w h : Nat) (image : List UInt32) :
    (∀ msg, Model.Crn.bufferBytes file = .fail msg →
      Model.Crn.decodeCrunch file w h image = .ok (.error msg, image)) ∧
    (Model.Crn.bufferBytes file = .panic → Model.Crn.decodeCrunch file w h image = .panic) ∧
    (∀ r, Model.Crn.crunchUnpackLevel file (asU 32 file.length) 0 = .ok r →
      Model.Crn.bufferBytes file = .ok r.dxtData.length) := by
  obtain ⟨h1, h2, h3⟩ := crunchUnpackLevel_before (data := file)
  refine ⟨fun m e => ?_, fun e => ?_, h3⟩
  · unfold Model.Crn.decodeCrunch
    rw [h1 m e]
  · unfold Model.Crn.decodeCrunch
    rw [h2 e]

/-- **C76** The same for `decode_unity_crunch`. -/
theorem C76_unity_crunch_buffer [Build] (file : List UInt8) (w h : Nat) (image : List UInt32) :
    (∀ msg, Model.Crn.Unity.bufferBytes file = .fail msg →
      Model.Crn.Unity.decodeUnityCrunch file w h image = .ok (.error msg, image)) ∧
    (Model.Crn.Unity.bufferBytes file = .panic →
      Model.Crn.Unity.decodeUnityCrunch file w h image = .panic) ∧
    (∀ r, Model.Crn.Unity.unityCrunchUnpackLevel file (asU 32 file.length) 0 = .ok r →
      Model.Crn.Unity.bufferBytes file = .ok r.dxtData.length) := by
  obtain ⟨h1, h2, h3⟩ := unityCrunchUnpackLevel_before (data := file)
  refine ⟨fun m e => ?_, fun e => ?_, h3⟩
  · unfold Model.Crn.Unity.decodeUnityCrunch
    rw [h1 m e]
  · unfold Model.Crn.Unity.decodeUnityCrunch
    rw [h2 e]

/-- **C76** (what holds) Whatever the file holds, the buffer has exactly the size of the texture that the
header describes, all faces together; never more than 2^40 bytes. -/
theorem C76_crunch_exact_partial [Build] (file : List UInt8) (hsmall : file.length < 2 ^ 32) (n : Nat)
    (hn : Model.Crn.bufferBytes file = .ok n) :
    n = bytesPerBlock (format file) * (faces file * blocksY file * blocksX file) ∧ n < 2 ^ 40 := by
  have e := bufferBytes_exact hsmall n hn
  refine ⟨e, ?_⟩
  obtain ⟨lx, ly⟩ := blocks_le (file := file)
  have lf : faces file < 256 := be_lt file _ 1
  have := bytesPerBlock_le (n := format file)
  have h1 : faces file * blocksY file * blocksX file ≤ 255 * 16384 * 16384 :=
    Nat.mul_le_mul (Nat.mul_le_mul (by omega) ly) lx
  have h2 := Nat.mul_le_mul this h1
  omega

/-- **C76** (what holds) The same for `decode_unity_crunch`. -/
theorem C76_unity_crunch_exact_partial [Build] (file : List UInt8) (hsmall : file.length < 2 ^ 32)
    (n : Nat) (hn : Model.Crn.Unity.bufferBytes file = .ok n) :
    n = bytesPerBlock (format file) * (faces file * blocksY file * blocksX file) ∧ n < 2 ^ 40 := by
  have e := uBufferBytes_exact hsmall n hn
  refine ⟨e, ?_⟩
  obtain ⟨lx, ly⟩ := blocks_le (file := file)
  have lf : faces file < 256 := be_lt file _ 1
  have := bytesPerBlock_le (n := format file)
  have h1 : faces file * blocksY file * blocksX file ≤ 255 * 16384 * 16384 :=
    Nat.mul_le_mul (Nat.mul_le_mul (by omega) ly) lx
  have h2 := Nat.mul_le_mul this h1
  omega

/-- **C76** (what holds) If the header has one face and the dimensions that the caller passes, the buffer
is as large as the compressed image. -/
theorem C76_crunch_own_size_partial [Build] (file : List UInt8) (hsmall : file.length < 2 ^ 32)
    (hf : faces file = 1) (hw : 0 < width file) (hh : 0 < height file) (n : Nat)
    (hn : Model.Crn.bufferBytes file = .ok n ∨ Model.Crn.Unity.bufferBytes file = .ok n) :
    n = Spec.bytesNeeded 4 4 (bytesPerBlock (format file)) (width file) (height file) := by
  have e : n = bytesPerBlock (format file) * (faces file * blocksY file * blocksX file) :=
    hn.elim (bufferBytes_exact hsmall n) (uBufferBytes_exact hsmall n)
  rw [e, hf, Nat.one_mul]
  unfold blocksY blocksX blocksOf Spec.bytesNeeded Spec.numBlocks Spec.ceilDiv
  rw [Nat.max_eq_left (by omega), Nat.max_eq_left (by omega)]
  ac_rfl

/- A file with one face that asks for its own size. -/
example : faces CrnDemo.crnDxt1 = 1 ∧ 0 < width CrnDemo.crnDxt1 ∧ 0 < height CrnDemo.crnDxt1 ∧
    ∀ b : Build, ∃ n, @Model.Crn.bufferBytes b CrnDemo.crnDxt1 = .ok n := by
  have hsome : (unpack CrnDemo.crnDxt1).isSome := by decide +kernel
  obtain ⟨dxt, hu⟩ := Option.isSome_iff_exists.1 hsome
  have hl : Limits CrnDemo.crnDxt1 := ⟨by decide +kernel, ⟨by decide +kernel, by decide +kernel,
    by decide +kernel⟩, by decide +kernel, by decide +kernel, by decide +kernel⟩
  exact ⟨by decide +kernel, by decide +kernel, by decide +kernel, fun b =>
    ⟨_, (@C76_crunch_buffer b CrnDemo.crnDxt1 0 0 []).2.2 _ (@crunchUnpackLevel_ok b _ _ hu hl).1⟩⟩

end Verif.Props
