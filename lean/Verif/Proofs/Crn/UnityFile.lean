import Verif.Proofs.Crn.UnityLevel
import Verif.Proofs.Crn.UnityPalettes
import Verif.Proofs.Crn.UnityEacPalettes
import Verif.Proofs.Crn.File

/-!
# Whole files of Unity's variant of Crunch
-/

namespace Verif.Proofs.Crn.Unity

open Verif Verif.Model Verif.Model.Crn Verif.Model.Crn.Unity Verif.Spec.Crn Verif.Spec.Crn.Unity

variable [Build]

omit [Build] in
theorem readSection_map {α β : Type} {file : List UInt8} {ofs size : Nat} {r : Reader α} {f : α → β}
    {b : β} (h : readSection file ofs size (do
      let a ← r
      pure (f a)) = some b) : ∃ a, readSection file ofs size r = some a ∧ b = f a := by
  obtain ⟨bits, rest, hb, h, _, _⟩ := readSection_some h
  obtain ⟨a, mid, h1, h2⟩ := reader_bind.mp h
  obtain ⟨rfl, rfl⟩ := reader_pure.mp h2
  refine ⟨a, ?_, rfl⟩
  unfold readSection
  rw [hb]
  show (r bits >>= fun p => pure p.1) = _
  rw [h1]; rfl

/-! ## Formats with one colour per block -/

/-- The colour palettes of the decoder. -/
def colourPart (file : List UInt8) : Res (List Nat × List Nat) :=
  if (specHeader file).colorEndpoints.num ≠ 0 then do
    let e ← (if hasEtc (format file) then decodeEtcEndpoints file (specHeader file)
      else decodeColorEndpoints file (specHeader file))
    let s ← Model.Crn.Unity.decodeSelectors file (specHeader file)
    pure (e, s)
  else pure ([], [])

/-- The alpha palettes of the decoder. -/
def alphaPart (file : List UInt8) : Res (List Nat × List Nat) :=
  if (specHeader file).alphaEndpoints.num ≠ 0 then do
    let e ← decodeAlphaEndpoints file (specHeader file)
    let s ← decodeAlphaSelectorsAny file (specHeader file)
    pure (e, s)
  else pure ([], [])

theorem wholeColour_ok {file : List UInt8} {cs : Codes} {colour : Plane} {t : CodeTables}
    (hf : hasSubblocks (format file) = false)
    (h : Spec.Crn.Unity.colourPlane file cs = some colour) (ht : CodesOk file cs t)
    (hl : SectionsInside file) :
    ∃ E S, colourPart file = .ok (E, S) ∧ ColourOk colour t.endpoint0 t.selector0 E S := by
  unfold Spec.Crn.Unity.colourPlane at h
  unfold colourPart
  by_cases h0 : (colorEndpoints file).num = 0
  · rw [if_pos h0] at h
    obtain rfl := Option.some.inj h
    exact ⟨[], [], if_neg (fun hc => hc h0), ⟨rfl, rfl, by simp, by simp, by simp, by simp⟩, by simp⟩
  · rw [if_neg h0] at h
    obtain ⟨⟨e, s⟩, h1, h⟩ := Option.bind_eq_some_iff.mp h
    obtain rfl := Option.some.inj h
    have htt := ht.colour (by omega)
    have hin := hl.colours h0
    suffices hs : ∃ E S, (if hasEtc (format file) then decodeEtcEndpoints file (specHeader file)
        else decodeColorEndpoints file (specHeader file)) = .ok E ∧
        Model.Crn.Unity.decodeSelectors file (specHeader file) = .ok S ∧
        e = E.map (leBytes 4) ∧ s = S.map (leBytes 4) ∧ E.length = (colorEndpoints file).num ∧
        S.length = (colorSelectors file).num by
      obtain ⟨E, S, e1, e2, p1, p2, n1, n2⟩ := hs
      refine ⟨E, S, ?_, ⟨p1, p2, ?_, ?_, fun _ => htt.1, fun _ => htt.2⟩, fun _ => by omega⟩
      · refine (if_pos (show (specHeader file).colorEndpoints.num ≠ 0 from h0)).trans ?_
        rw [e1, Res.ok_bind, e2, Res.ok_bind]; rfl
      · rw [n1]; exact palette_num_lt _ _
      · rw [n2]; exact palette_num_lt _ _
    unfold colourPalettes at h1
    by_cases he : format file = 13 ∨ format file = 14
    · rw [if_pos he] at h1
      obtain ⟨e', h2, h1⟩ := Option.bind_eq_some_iff.mp h1
      obtain ⟨s', h3, h1⟩ := Option.bind_eq_some_iff.mp h1
      obtain ⟨rfl, rfl⟩ : e' = e ∧ s' = s := by simpa using h1
      have hetc : hasEtc (format file) = true := by
        unfold hasEtc; rcases he with he | he <;> simp [he]
      obtain ⟨cols, h4, rfl⟩ := readSection_map h2
      obtain ⟨sels, h5, rfl⟩ := readSection_map h3
      obtain ⟨e1, n1, v1⟩ := etcColours_ok h4 hin.1
      obtain ⟨e2, n2, v2⟩ := etcSelectors_ok hetc h5 hin.2
      rw [hf] at e1 e2
      have hflat : sels.flatMap (storedSelectors false)
          = sels.map fun l => etcWord (transpose l) := by
        rw [show (storedSelectors false) = fun l => [etcWord (transpose l)] from rfl]
        exact (List.map_eq_flatMap ..).symm
      rw [hflat] at e2
      refine ⟨_, _, (if_pos hetc).trans e1, e2, ?_, ?_, by rw [List.length_map, n1],
        by rw [List.length_map, n2]⟩
      · rw [List.map_map]
        exact List.map_congr_left fun c hc => (storedColour_bytes (v1 c hc)).symm
      · rw [List.map_map]
        refine List.map_congr_left fun l hl' => ?_
        exact (etcWord_bytes (transpose_length l) (transpose_lt (by omega) (v2 l hl').2)).1.symm
    · rw [if_neg he] at h1
      obtain ⟨e', h2, h1⟩ := Option.bind_eq_some_iff.mp h1
      obtain ⟨s', h3, h1⟩ := Option.bind_eq_some_iff.mp h1
      obtain ⟨rfl, rfl⟩ : e' = e ∧ s' = s := by simpa using h1
      have hetc : hasEtc (format file) = false := by
        unfold hasSubblocks at hf
        unfold hasEtc
        simp only [Bool.or_eq_false_iff, decide_eq_false_iff_not] at hf ⊢
        omega
      obtain ⟨E, e1, p1, n1, _⟩ := colorEndpoints_ok h2 hin.1
      obtain ⟨S, e2, p2, n2, _⟩ := dxtSelectors_ok hetc h3 hin.2
      exact ⟨E, S, (if_neg (by simp [hetc])).trans e1, e2, p1, p2, n1, n2⟩

theorem wholeAlpha_ok {file : List UInt8} {cs : Codes} {alpha : Plane} {t : CodeTables}
    (hf : hasSubblocks (format file) = false)
    (h : Spec.Crn.Unity.alphaPlane file cs = some alpha) (ht : CodesOk file cs t)
    (hl : SectionsInside file) :
    ∃ E A V, alphaPart file = .ok (E, A) ∧ AlphaOk alpha t.endpoint1 t.selector1 E A V := by
  unfold Spec.Crn.Unity.alphaPlane at h
  unfold alphaPart
  by_cases h0 : (alphaEndpoints file).num = 0
  · rw [if_pos h0] at h
    obtain rfl := Option.some.inj h
    exact ⟨[], [], [], if_neg (fun hc => hc h0), ⟨rfl, rfl, by simp, by simp, by simp, by simp, by simp,
      ⟨by simp, by simp⟩, by simp⟩⟩
  · rw [if_neg h0] at h
    obtain ⟨e, h1, h⟩ := Option.bind_eq_some_iff.mp h
    obtain ⟨s, h2, h⟩ := Option.bind_eq_some_iff.mp h
    obtain rfl := Option.some.inj h
    have htt := ht.alpha (by omega)
    have hin := hl.alphas h0
    obtain ⟨E, e1, p1, n1, v1⟩ := alphaEndpoints_ok h1 hin.1
    suffices hs : ∃ A V, decodeAlphaSelectorsAny file (specHeader file) = .ok A ∧
        Words3 A V ∧ s = V.map (leBytes 6) ∧ V.length = (alphaSelectors file).num by
      obtain ⟨A, V, e2, w2, p2, n2⟩ := hs
      refine ⟨E, A, V, ?_, ⟨p1, p2, ?_, ?_, fun _ => htt.1, fun _ => htt.2, v1, w2, fun _ => by omega⟩⟩
      · refine (if_pos (show (specHeader file).alphaEndpoints.num ≠ 0 from h0)).trans ?_
        rw [e1, Res.ok_bind, e2, Res.ok_bind]; rfl
      · rw [n1]; exact palette_num_lt _ _
      · rw [n2]; exact palette_num_lt _ _
    unfold decodeAlphaSelectorsAny
    rw [show (specHeader file).format = format file from rfl]
    by_cases he : format file = 14
    · rw [if_pos he] at h2 ⊢
      obtain ⟨sels, h4, rfl⟩ := readSection_map h2
      obtain ⟨A, e2, w2, n2, v2⟩ := eacSelectorsOnce_ok h4 hin.2
      refine ⟨A, _, e2, w2, ?_, by rw [List.length_map, n2]⟩
      rw [List.map_map]
      refine List.map_congr_left fun l hl' => ?_
      exact (eac_bytes (transpose_length l) (transpose_lt (by omega) (v2 l hl').2)).symm
    · rw [if_neg he] at h2 ⊢
      have h12 : format file ≠ 12 := by
        unfold hasSubblocks at hf
        simp only [Bool.or_eq_false_iff, decide_eq_false_iff_not] at hf
        omega
      rw [if_neg h12]
      obtain ⟨S, e2, p2, n2, v2⟩ := alphaSelectors_ok h2 hin.2
      exact ⟨_, S, e2, words3_flatMap v2, p2, n2⟩

theorem init_eq {file : List UInt8} {t : CodeTables} {E S E' A : List Nat}
    (hh : HeaderOk file file.length) (hlen : headerBytes file ≤ file.length) (h74 : 74 ≤ file.length)
    (et : initTables file (specHeader file) = .ok t) (ec : colourPart file = .ok (E, S))
    (ea : alphaPart file = .ok (E', A)) :
    Model.Crn.Unity.init file file.length
      = .ok ⟨file, file.length, specHeader file, t, E, S, E', A⟩ := by
  unfold Model.Crn.Unity.init
  rw [crndGetHeader_ok h74 hlen, if_pos hh, Res.lift_ok, Res.ok_bind]
  simp only
  rw [et, Res.ok_bind]
  unfold colourPart at ec
  unfold alphaPart at ea
  rw [show (specHeader file).format = format file from rfl, ec, Res.ok_bind]
  simp only
  rw [ea, Res.ok_bind]
  rfl

/-! ## The first level -/

/-- The words of a block. -/
def wordsOf (format : Nat) : Nat :=
  if format = 0 ∨ format = 9 ∨ format = 10 ∨ format = 11 ∨ format = 13 then 2 else 4

omit [Build] in
theorem wordsOf_cases (format : Nat) : wordsOf format = 2 ∨ wordsOf format = 4 := by
  unfold wordsOf; split <;> simp

/-- The formats that Unity's variant unpacks. -/
def Known (format : Nat) : Prop := format = 0 ∨ (2 ≤ format ∧ format ≤ 14)

theorem unpackFormat_panic {file : List UInt8} {u : Unpacker} (hu : u.header = specHeader file)
    (hk : Known (format file)) {nx ny : Nat} (hnx : nx < 2 ^ 15) (hny : ny < 2 ^ 15)
    (hck : Build.overflowChecks = true) (hodd : nx % 2 = 1) (c : Codec) (dst : List UInt8) :
    Model.Crn.Unity.unpackFormat u (4 * wordsOf (format file) * nx) nx ny c dst = .panic := by
  have hfmt : u.header.format = format file := by rw [hu]; rfl
  unfold Known at hk
  unfold Model.Crn.Unity.unpackFormat
  simp only [hfmt]
  have key : ∀ (f words : Nat), wordsOf f = words → ∀ bufW step,
      loop bufW words u.header.faces (4 * wordsOf f * nx) nx ny step c dst = .panic := by
    rintro f words rfl bufW step
    exact loop_panic (wordsOf_cases f) hnx hny hck hodd step c dst
  generalize format file = f at hk
  by_cases f0 : f = 0 ∨ f = 13
  · rw [if_pos f0]
    exact key f 2 (by unfold wordsOf; rw [if_pos (by omega)]) 1 _
  rw [if_neg f0]
  by_cases f2 : (2 ≤ f ∧ f ≤ 6) ∨ f = 14
  · rw [if_pos f2]
    exact key f 4 (by unfold wordsOf; rw [if_neg (by omega)]) 1 _
  rw [if_neg f2]
  by_cases f9 : f = 9
  · rw [if_pos f9]
    exact key f 2 (by unfold wordsOf; rw [if_pos (by omega)]) 1 _
  rw [if_neg f9]
  by_cases f7 : f = 7 ∨ f = 8
  · rw [if_pos f7]
    exact key f 4 (by unfold wordsOf; rw [if_neg (by omega)]) 1 _
  rw [if_neg f7]
  by_cases f10 : f = 10 ∨ f = 11
  · rw [if_pos f10]
    exact key f 2 (by unfold wordsOf; rw [if_pos (by omega)]) 2 _
  rw [if_neg f10]
  by_cases f12 : f = 12
  · rw [if_pos f12]
    exact key f 4 (by unfold wordsOf; rw [if_neg (by omega)]) 2 _
  omega

omit [Build] in
theorem unityBytesPerDxtBlock_ok {n : Nat} (h : Known n) :
    Model.Crn.Unity.bytesPerDxtBlock (crnFormatOf n) = .ok (4 * wordsOf n) := by
  have key : ∀ v : Fin 15, v.val = 0 ∨ 2 ≤ v.val →
      Model.Crn.Unity.bytesPerDxtBlock (crnFormatOf v.val) = .ok (4 * wordsOf v.val) := by
    intro v
    match v with
    | ⟨0, _⟩ | ⟨2, _⟩ | ⟨3, _⟩ | ⟨4, _⟩ | ⟨5, _⟩ | ⟨6, _⟩ | ⟨7, _⟩ | ⟨8, _⟩ | ⟨9, _⟩ | ⟨10, _⟩ | ⟨11, _⟩
    | ⟨12, _⟩ | ⟨13, _⟩ | ⟨14, _⟩ => intro _; rfl
    | ⟨1, _⟩ => intro h; simp at h
  unfold Known at h
  exact key ⟨n, by omega⟩ (by simp only; omega)

theorem unityUnpackLevel2_eq {file src : List UInt8} {size : Nat} {u : Unpacker}
    (hu : u.header = specHeader file)
    {B : Nat} (hB : B = 4 * wordsOf (format file))
    (hf : 0 < faces file)
    (hbig : 16 * (faces file * blocksY file * blocksX file) < 2 ^ 30)
    {c : Codec} (hc0 : Codec.start src size = .ok c) :
    Model.Crn.Unity.unpackLevel2 u src size (B * blocksX file * blocksY file) (blocksX file * B) 0
      = (do
        let st ← Model.Crn.Unity.unpackFormat u (B * blocksX file) (blocksX file) (blocksY file) c
          (List.replicate (B * (faces file * blocksY file * blocksX file)) 0)
        pure st.dst) := by
  have hfmt : u.header.format = format file := by rw [hu]; rfl
  have hfac : u.header.faces = faces file := by rw [hu]; rfl
  have hw : u.header.width = width file := by rw [hu]; rfl
  have hh : u.header.height = height file := by rw [hu]; rfl
  have hwl : width file < 2 ^ 16 := be_lt file _ 2
  have hhl : height file < 2 ^ 16 := be_lt file _ 2
  have hnx : blocksX file < 2 ^ 15 := blocksOf_lt hwl
  have hny : blocksY file < 2 ^ 15 := blocksOf_lt hhl
  have hBB : B = 8 ∨ B = 16 := by have := wordsOf_cases (format file); omega
  have hT : blocksY file * blocksX file ≤ faces file * blocksY file * blocksX file := by
    rw [Nat.mul_assoc]; exact Nat.le_mul_of_pos_left _ hf
  have hT2 : B * blocksX file * blocksY file = B * (blocksY file * blocksX file) := by
    rw [Nat.mul_assoc, Nat.mul_comm (blocksX file)]
  have hT3 : B * blocksX file * blocksY file * faces file
      = B * (faces file * blocksY file * blocksX file) := by
    rw [hT2, Nat.mul_assoc, Nat.mul_comm _ (faces file), Nat.mul_assoc]
  have hbits : ∀ n, n < 2 ^ 16 → shrU 32 n 0 = .ok n := fun n _ => by
    rw [shrU_ok (by omega)]; rfl
  have hBf : (if format file = 0 ∨ format file = 9 ∨ format file = 10 ∨ format file = 11 ∨
      format file = 13 then 8 else 16) = B := by
    rw [hB]; unfold wordsOf; split <;> rfl
  unfold Model.Crn.Unity.unpackLevel2
  rw [hw, hh, hbits _ hwl, Res.lift_ok, Res.ok_bind, hbits _ hhl, Res.lift_ok, Res.ok_bind,
    addU_ok (by omega), Res.lift_ok, Res.ok_bind, addU_ok (by omega), Res.lift_ok, Res.ok_bind]
  simp only [blocksOf_shift, hfmt, hBf, hfac]
  rw [show blocksOf (width file) = blocksX file from rfl, show blocksOf (height file) = blocksY file from rfl]
  rw [mulU_ok (by rcases hBB with rfl | rfl <;> omega), Res.lift_ok, Res.ok_bind]
  rw [if_neg (by
    rintro ⟨_, hc | hc⟩
    · rw [Nat.mul_comm] at hc; omega
    · apply hc
      rw [show (3 : Nat) = 2 ^ 2 - 1 from rfl, Nat.and_two_pow_sub_one_eq_mod]
      rcases hBB with rfl | rfl <;> omega)]
  have hnx0 : 0 < blocksX file := blocksOf_pos _
  rw [if_neg (by rcases hBB with rfl | rfl <;> omega), Nat.mul_comm (blocksX file) B]
  rw [mulU_ok (by rw [hT3]; rcases hBB with rfl | rfl <;> omega), Res.lift_ok, Res.ok_bind,
    mulU_ok (by rw [hT2]; rcases hBB with rfl | rfl <;> omega), Res.lift_ok, Res.ok_bind,
    if_neg (by omega), hc0, Res.orErr_ok, Res.ok_bind, hT3]

theorem unityUnpackLevel_eq {file : List UInt8} {u : Unpacker}
    (hh : HeaderOk file file.length) (hlv : 0 < levels file) (hhb : headerBytes file ≤ file.length)
    (hl : file.length < 2 ^ 32) (hf : 0 < faces file)
    (hbig : 16 * (faces file * blocksY file * blocksX file) < 2 ^ 30)
    (eu : Model.Crn.Unity.init file file.length = .ok u) (hd : u.data = file)
    (hsz : u.dataSize = file.length) (hu : u.header = specHeader file) (hk : Known (format file))
    (h0 : 0 < levelEnd file - levelOfs file 0)
    {bits : List Bool}
    (hb : sectionBits file (levelOfs file 0) (levelEnd file - levelOfs file 0) = some bits) :
    ∃ c, At (file.drop (levelOfs file 0)) (levelEnd file - levelOfs file 0 - 1) c bits ∧
    unityCrunchUnpackLevel file (asU 32 file.length) 0 = (do
      let st ← Model.Crn.Unity.unpackFormat u (4 * wordsOf (format file) * blocksX file)
        (blocksX file) (blocksY file) c
        (List.replicate (4 * wordsOf (format file) * (faces file * blocksY file * blocksX file)) 0)
      pure { format := crnFormatOf (format file), dxtData := st.dst, faces := faces file }) := by
  have h74 : 74 ≤ file.length := by unfold headerBytes at hhb; omega
  obtain ⟨es, c, ec, hc⟩ := section_start hb
  refine ⟨c, hc, ?_⟩
  have hwl : width file < 2 ^ 16 := be_lt file _ 2
  have hhl : height file < 2 ^ 16 := be_lt file _ 2
  have hnx : blocksX file < 2 ^ 15 := blocksOf_lt hwl
  have hnx0 : 0 < blocksX file := blocksOf_pos _
  have hny0 : 0 < blocksY file := blocksOf_pos _
  generalize hB : 4 * wordsOf (format file) = B
  have hBB : B = 8 ∨ B = 16 := by have := wordsOf_cases (format file); omega
  have hT : blocksY file * blocksX file ≤ faces file * blocksY file * blocksX file := by
    rw [Nat.mul_assoc]; exact Nat.le_mul_of_pos_left _ hf
  have hT2 : B * blocksX file * blocksY file = B * (blocksY file * blocksX file) := by
    rw [Nat.mul_assoc, Nat.mul_comm (blocksX file)]
  have hTp : 0 < blocksY file * blocksX file := Nat.mul_pos hny0 hnx0
  have hbits : ∀ n, n < 2 ^ 16 → shrU 32 n 0 = .ok n := fun n _ => by
    rw [shrU_ok (by omega)]; rfl
  have hlevel := unityUnpackLevel2_eq hu hB.symm hf hbig ec
  have hofs : u.header.levelOfs[0]? = some (levelOfs file 0) := by
    rw [hu]
    show ((List.range (levels file)).map (levelOfs file))[0]? = _
    rw [List.getElem?_map, List.getElem?_range hlv]; rfl
  have hnext : nextLevelOfs u 0 = .ok (levelEnd file) := by
    unfold nextLevelOfs levelEnd
    rw [addU_ok (by omega), Out.ok_bind]
    have hlvs : u.header.levels = levels file := by rw [hu]; rfl
    rw [hlvs]
    by_cases hl1 : 1 < levels file
    · refine (if_pos hl1).trans ?_
      rw [if_pos hl1]
      apply idx_of_some
      rw [hu]
      show ((List.range (levels file)).map (levelOfs file))[0 + 1]? = _
      rw [List.getElem?_map, List.getElem?_range hl1]; rfl
    · refine (if_neg hl1).trans ?_
      rw [if_neg hl1, hsz]; rfl
  have hunpack : Model.Crn.Unity.unpackLevel u (B * blocksX file * blocksY file) (blocksX file * B) 0
      = (do
        let st ← Model.Crn.Unity.unpackFormat u (B * blocksX file) (blocksX file) (blocksY file) c
          (List.replicate (B * (faces file * blocksY file * blocksX file)) 0)
        pure st.dst) := by
    unfold Model.Crn.Unity.unpackLevel
    rw [if_neg (by rw [hT2]; rcases hBB with rfl | rfl <;> omega), idx_of_some hofs, Res.lift_ok,
      Res.ok_bind, hnext, Res.lift_ok, Res.ok_bind, if_neg (by omega), hd, es, Res.lift_ok,
      Res.ok_bind, subU_ok (by omega), Res.lift_ok, Res.ok_bind, hlevel]
  have hf15 : format file ≤ 15 := by unfold Known at hk; omega
  unfold unityCrunchUnpackLevel
  rw [show asU 32 file.length = file.length from Nat.mod_eq_of_lt hl,
    textureInfo_ok h74 rfl hhb hh hf15, Res.lift_ok, Res.ok_bind]
  simp only
  rw [if_neg (by simp)]
  unfold Model.Crn.Unity.unpackBegin
  rw [if_neg (by omega), eu, Res.orErr_ok, Res.ok_bind, hbits _ hwl, Res.lift_ok, Res.ok_bind,
    hbits _ hhl, Res.lift_ok, Res.ok_bind, addU_ok (by omega), Res.lift_ok, Res.ok_bind,
    addU_ok (by omega), Res.lift_ok, Res.ok_bind, unityBytesPerDxtBlock_ok hk, hB, Res.ok_bind]
  rw [Nat.max_comm 1 (width file), Nat.max_comm 1 (height file), blocksOf_shift, blocksOf_shift,
    show blocksOf (width file) = blocksX file from rfl, show blocksOf (height file) = blocksY file from rfl,
    Nat.max_eq_right (show 1 ≤ blocksX file from hnx0), Nat.max_eq_right (show 1 ≤ blocksY file from hny0)]
  rw [mulU_ok (by rcases hBB with rfl | rfl <;> omega), Res.lift_ok, Res.ok_bind,
    mulU_ok (by
      rw [Nat.mul_comm (blocksX file) B, hT2]
      rcases hBB with rfl | rfl <;> omega), Res.lift_ok, Res.ok_bind]
  rw [show blocksX file * B * blocksY file = B * blocksX file * blocksY file by
    rw [Nat.mul_comm (blocksX file) B], hunpack]
  cases Model.Crn.Unity.unpackFormat u (B * blocksX file) (blocksX file) (blocksY file) c
    (List.replicate (B * (faces file * blocksY file * blocksX file)) 0) <;> rfl

/-- What the level of a file comes to: the section with its bits, and the blocks that the decoder
makes of it. -/
def LevelOk (file : List UInt8) (u : Unpacker) (bl : List (List UInt8)) : Prop :=
  ∃ bits, sectionBits file (levelOfs file 0) (levelEnd file - levelOfs file 0) = some bits ∧
    0 < levelEnd file - levelOfs file 0 ∧ Known (format file) ∧
    ((Build.overflowChecks = false ∨ blocksX file % 2 = 0) → ∀ c,
      At (file.drop (levelOfs file 0)) (levelEnd file - levelOfs file 0 - 1) c bits →
      ∃ st', Model.Crn.Unity.unpackFormat u (4 * wordsOf (format file) * blocksX file)
        (blocksX file) (blocksY file) c
        (List.replicate (4 * wordsOf (format file) * (faces file * blocksY file * blocksX file)) 0)
          = .ok st' ∧ st'.dst = bl.flatten ∧
        st'.dst.length = 4 * wordsOf (format file) * (faces file * blocksY file * blocksX file))

/-- The result of opening a file. -/
def Opened (file : List UInt8) (bl : List (List UInt8)) : Prop :=
  ∃ u, Model.Crn.Unity.init file file.length = .ok u ∧ u.data = file ∧ u.dataSize = file.length ∧
    u.header = specHeader file ∧ LevelOk file u bl

omit [Build] in
theorem grid_of_file {file : List UInt8} (hl : Limits file) :
    Grid (faces file) (blocksX file) (blocksY file) (even (blocksX file)) (even (blocksY file)) :=
  ⟨rfl, rfl, blocksOf_pos _, blocksOf_lt (be_lt file _ 2), blocksOf_lt (be_lt file _ 2), hl.shape⟩

omit [Build] in
theorem big_of_file {file : List UInt8} (hl : Limits file) {words : Nat}
    (hw : words = 2 ∨ words = 4) :
    4 * words * (faces file * blocksY file * blocksX file + 2 * blocksX file + 4) < 2 ^ 31 := by
  have h1 : blocksX file < 2 ^ 15 := blocksOf_lt (be_lt file _ 2)
  have h2 := hl.big
  rcases hw with rfl | rfl <;> omega

omit [Build] in
theorem readLevel_some {β : Type} {file : List UInt8} {d : β} {r : Nat → List β → Reader β}
    {l : List β} (h : readLevel file d r = some l) :
    ∃ bl bits rest, sectionBits file (levelOfs file 0) (levelEnd file - levelOfs file 0) = some bits ∧
      0 < levelEnd file - levelOfs file 0 ∧
      grow (r (even (blocksX file))) (faces file * even (blocksY file) * even (blocksX file)) [] bits
        = some (bl, rest) ∧
      l = Spec.Crn.Unity.levelBlocks d (faces file) (blocksX file) (blocksY file) bl := by
  unfold readLevel at h
  obtain ⟨bl, h1, h2⟩ := Option.bind_eq_some_iff.mp h
  obtain ⟨bits, rest, hb, h3, h0, _⟩ := readSection_some h1
  exact ⟨bl, bits, rest, hb, h0, h3, (Option.some.inj h2).symm⟩

theorem wholeBlocks_ok {file : List UInt8} {cs : Codes} {bl : List (List UInt8)}
    (hf : hasSubblocks (format file) = false)
    (hh : HeaderOk file file.length) (hlv : 0 < levels file)
    (hlen : headerBytes file ≤ file.length) (h1 : fileCodes file = some cs) (h : wholeBlocks file cs = some bl) (hl : Limits file) :
    Opened file bl := by
  have h74 : 74 ≤ file.length := by unfold headerBytes at hlen; omega
  obtain ⟨colour, h2, h⟩ := Option.bind_eq_some_iff.mp h
  obtain ⟨alpha, h3, h⟩ := Option.bind_eq_some_iff.mp h
  obtain ⟨⟨planes, order⟩, h4, h⟩ := Option.bind_eq_some_iff.mp h
  obtain ⟨l, h5, h⟩ := Option.bind_eq_some_iff.mp h
  obtain rfl := Option.some.inj h
  obtain ⟨t, et, ht⟩ := initTables_ok h1 hl.sections.tables
  obtain ⟨E, S, ec, hc⟩ := wholeColour_ok hf h2 ht hl.sections
  obtain ⟨E', A, V, ea, ha⟩ := wholeAlpha_ok hf h3 ht hl.sections
  refine ⟨_, init_eq hh hlen h74 et ec ea, rfl, rfl, rfl, ?_⟩
  obtain ⟨l', bits, rest, hb, h0, hg, rfl⟩ := readLevel_some h5
  have hgrid := grid_of_file hl
  have hfac : (specHeader file).faces = faces file := rfl
  have hfmt : (specHeader file).format = format file := rfl
  unfold Spec.Crn.Unity.planesOf at h4
  unfold hasSubblocks at hf
  simp only [Bool.or_eq_false_iff, decide_eq_false_iff_not] at hf
  refine ⟨bits, hb, h0, ?_, fun hodd c hc' => ?_⟩
  · unfold Known
    split at h4
    · omega
    · split at h4
      · omega
      · split at h4
        · omega
        · split at h4
          · omega
          · exact absurd h4 (by simp)
  unfold Model.Crn.Unity.unpackFormat
  simp only [hfac, hfmt]
  generalize format file = f at h4 hf
  by_cases f0 : f = 0 ∨ f = 13
  · rw [if_pos f0] at h4
    rw [if_pos f0]
    obtain ⟨rfl, rfl⟩ : [colour] = planes ∧ [0] = order := by simpa using h4
    rw [show wordsOf f = 2 by unfold wordsOf; rw [if_pos (by omega)]]
    exact wholeLoop_ok hgrid (Or.inl rfl) (big_of_file hl (Or.inl rfl)) hodd ht.encoding
      (dxt1Kind_ok hc rfl rfl) hg hc'
  rw [if_neg f0] at h4
  rw [if_neg f0]
  by_cases f2 : (2 ≤ f ∧ f ≤ 6) ∨ f = 14
  · rw [if_pos f2] at h4
    rw [if_pos f2]
    obtain ⟨rfl, rfl⟩ : [colour, alpha] = planes ∧ [1, 0] = order := by simpa using h4
    rw [show wordsOf f = 4 by unfold wordsOf; rw [if_neg (by omega)]]
    exact wholeLoop_ok hgrid (Or.inr rfl) (big_of_file hl (Or.inr rfl)) hodd ht.encoding
      (dxt5Kind_ok hc rfl rfl ha rfl) hg hc'
  rw [if_neg f2] at h4
  rw [if_neg f2]
  by_cases f7 : f = 7 ∨ f = 8
  · rw [if_pos f7] at h4
    rw [if_neg (show ¬ f = 9 by omega), if_pos f7]
    obtain ⟨rfl, rfl⟩ : [alpha, alpha] = planes ∧ [0, 1] = order := by simpa using h4
    rw [show wordsOf f = 4 by unfold wordsOf; rw [if_neg (by omega)]]
    exact wholeLoop_ok hgrid (Or.inr rfl) (big_of_file hl (Or.inr rfl)) hodd ht.encoding
      (dxnKind_ok ha rfl) hg hc'
  rw [if_neg f7] at h4
  by_cases f9 : f = 9
  · rw [if_pos f9] at h4
    rw [if_pos f9]
    obtain ⟨rfl, rfl⟩ : [alpha] = planes ∧ [0] = order := by simpa using h4
    rw [show wordsOf f = 2 by unfold wordsOf; rw [if_pos (by omega)]]
    exact wholeLoop_ok hgrid (Or.inl rfl) (big_of_file hl (Or.inl rfl)) hodd ht.encoding
      (dxt5aKind_ok ha rfl) hg hc'
  rw [if_neg f9] at h4
  exact absurd h4 (by simp)

/-! ## Formats with two colours per block -/

omit [Build] in
theorem require'_bind {α : Type} {p : Prop} [Decidable p] {x : Option α} {a : α}
    (h : (do
      halfBlocks.require' p
      x) = some a) : p ∧ x = some a := by
  unfold halfBlocks.require' at h
  by_cases hp : p
  · rw [if_pos hp] at h; exact ⟨hp, h⟩
  · rw [if_neg hp] at h; exact absurd h (by simp)

theorem halfBlocks_ok {file : List UInt8} {cs : Codes} {bl : List (List UInt8)}
    (hf : format file = 10 ∨ format file = 11 ∨ format file = 12)
    (hh : HeaderOk file file.length) (hlv : 0 < levels file)
    (hlen : headerBytes file ≤ file.length) (h1 : fileCodes file = some cs) (h : halfBlocks file cs = some bl) (hl : Limits file) :
    Opened file bl := by
  have h74 : 74 ≤ file.length := by unfold headerBytes at hlen; omega
  unfold halfBlocks at h
  obtain ⟨hce, h⟩ := require'_bind h
  obtain ⟨cols, h2, h⟩ := Option.bind_eq_some_iff.mp h
  obtain ⟨sels, h3, h⟩ := Option.bind_eq_some_iff.mp h
  have hsub : hasSubblocks (format file) = true := by
    unfold hasSubblocks; rcases hf with hf | hf | hf <;> simp [hf]
  have hetc : hasEtc (format file) = true := by
    unfold hasEtc; rcases hf with hf | hf | hf <;> simp [hf]
  have hin := hl.sections.colours hce
  obtain ⟨t, et, ht⟩ := initTables_ok h1 hl.sections.tables
  obtain ⟨e1, n1, v1⟩ := etcColours_ok h2 hin.1
  obtain ⟨e2, n2, v2⟩ := etcSelectors_ok hetc h3 hin.2
  rw [hsub] at e1 e2
  have htt := ht.colour (by omega)
  have ec : colourPart file = .ok (cols.map (storedColour true), sels.flatMap (storedSelectors true)) := by
    unfold colourPart
    refine (if_pos (show (specHeader file).colorEndpoints.num ≠ 0 from hce)).trans ?_
    rw [if_pos hetc, e1, Res.ok_bind, e2, Res.ok_bind]; rfl
  have hcol : ∀ (E' A : List Nat), EtcColourOk ⟨file, file.length, specHeader file, t,
      cols.map (storedColour true), sels.flatMap (storedSelectors true), E', A⟩
      ⟨cs.colourEndpoint, cols.length, cs.colourSelector, sels.length⟩ cols sels := fun E' A =>
    ⟨rfl, rfl, rfl, rfl, v1, v2, by rw [n1]; exact palette_num_lt _ _,
      by rw [n2]; exact palette_num_lt _ _, by omega, htt.1, fun _ => htt.2⟩
  have hgrid := grid_of_file hl
  have hfac : (specHeader file).faces = faces file := rfl
  have hfmt : (specHeader file).format = format file := rfl
  have hknown : Known (format file) := by unfold Known; omega
  by_cases f12 : format file = 12
  · rw [if_pos f12] at h
    obtain ⟨hae, h⟩ := require'_bind h
    obtain ⟨alphas, h4, h⟩ := Option.bind_eq_some_iff.mp h
    obtain ⟨asels, h5, h⟩ := Option.bind_eq_some_iff.mp h
    obtain ⟨l, h6, h⟩ := Option.bind_eq_some_iff.mp h
    obtain rfl := Option.some.inj h
    have hain := hl.sections.alphas hae
    have hat := ht.alpha (by omega)
    obtain ⟨E', e4, p4, n4, v4⟩ := alphaEndpoints_ok h4 hain.1
    obtain ⟨A, e5, w5, n5, v5⟩ := eacSelectorsTwice_ok h5 hain.2
    have hpos : 0 < E'.length := by omega
    have ea : alphaPart file = .ok (E', A) := by
      unfold alphaPart
      refine (if_pos (show (specHeader file).alphaEndpoints.num ≠ 0 from hae)).trans ?_
      have : decodeAlphaSelectorsAny file (specHeader file) = .ok A := by
        unfold decodeAlphaSelectorsAny
        rw [hfmt, if_neg (by omega), if_pos f12, e5]
      rw [e4, Res.ok_bind, this, Res.ok_bind]; rfl
    refine ⟨_, init_eq hh hlen h74 et ec ea, rfl, rfl, rfl, ?_⟩
    obtain ⟨l', bits, rest, hb, h0, hg, rfl⟩ := readLevel_some h6
    refine ⟨bits, hb, h0, hknown, fun hodd c hc' => ?_⟩
    unfold Model.Crn.Unity.unpackFormat
    simp only [hfac, hfmt]
    rw [f12, if_neg (by omega), if_neg (by omega), if_neg (by omega), if_neg (by omega),
      if_neg (by omega), if_pos rfl, show wordsOf 12 = 4 from rfl]
    exact halfLoop_ok hgrid (Or.inr rfl) (big_of_file hl (Or.inr rfl)) hodd ht.encoding
      (etc2aKind_ok (hcol E' A) rfl p4 (by simp [p4]) rfl
        (by rw [n4]; exact palette_num_lt _ _) (by rw [n5]; exact palette_num_lt _ _) hpos v4 v5 w5
        hat.1 (fun _ => hat.2)) hg hc'
  · rw [if_neg f12] at h
    obtain ⟨hae, h⟩ := require'_bind h
    obtain ⟨l, h6, h⟩ := Option.bind_eq_some_iff.mp h
    obtain rfl := Option.some.inj h
    have ea : alphaPart file = .ok ([], []) := by
      unfold alphaPart
      exact if_neg (fun hc => hc hae)
    refine ⟨_, init_eq hh hlen h74 et ec ea, rfl, rfl, rfl, ?_⟩
    obtain ⟨l', bits, rest, hb, h0, hg, rfl⟩ := readLevel_some h6
    refine ⟨bits, hb, h0, hknown, fun hodd c hc' => ?_⟩
    unfold Model.Crn.Unity.unpackFormat
    simp only [hfac, hfmt]
    generalize format file = f at hf f12
    rw [if_neg (by omega), if_neg (by omega), if_neg (by omega), if_neg (by omega),
      if_pos (by omega), show wordsOf f = 2 by unfold wordsOf; rw [if_pos (by omega)]]
    exact halfLoop_ok hgrid (Or.inl rfl) (big_of_file hl (Or.inl rfl)) hodd ht.encoding
      (etc1Kind_ok (hcol [] [])) hg hc'

/-! ## Files -/

theorem unity_unpack_some {file dxt : List UInt8} (h : Spec.Crn.Unity.unpack file = some dxt)
    (hl : Limits file) :
    HeaderOk file file.length ∧ 0 < levels file ∧ headerBytes file ≤ file.length ∧
    ∃ bl, dxt = bl.flatten ∧ Opened file bl := by
  unfold Spec.Crn.Unity.unpack at h
  split at h
  · rename_i h0
    obtain ⟨cs, h1, h⟩ := Option.bind_eq_some_iff.mp h
    obtain ⟨bl, h2, h⟩ := Option.bind_eq_some_iff.mp h
    refine ⟨h0.1, h0.2.1, h0.2.2, bl, (Option.some.inj h).symm, ?_⟩
    by_cases hf : format file = 10 ∨ format file = 11 ∨ format file = 12
    · rw [if_pos hf] at h2
      exact halfBlocks_ok hf h0.1 h0.2.1 h0.2.2 h1 h2 hl
    · rw [if_neg hf] at h2
      refine wholeBlocks_ok ?_ h0.1 h0.2.1 h0.2.2 h1 h2 hl
      unfold hasSubblocks
      simp only [Bool.or_eq_false_iff, decide_eq_false_iff_not]
      omega
  · exact absurd h (by simp)

/-- A file is unpacked to its blocks, in a build without overflow checks or with an even number of
block columns. -/
theorem unityCrunchUnpackLevel_ok {file dxt : List UInt8}
    (h : Spec.Crn.Unity.unpack file = some dxt) (hl : Limits file)
    (hodd : Build.overflowChecks = false ∨ blocksX file % 2 = 0) :
    unityCrunchUnpackLevel file (asU 32 file.length) 0
      = .ok { format := crnFormatOf (format file), dxtData := dxt, faces := faces file } ∧
    Known (format file) ∧
    dxt.length = 4 * wordsOf (format file) * (faces file * blocksY file * blocksX file) := by
  obtain ⟨hh, hlv, hhb, bl, rfl, u, eu, hd, hsz, hu, bits, hb, h0, hk, hlevel⟩ := unity_unpack_some h hl
  obtain ⟨c, hc, e⟩ := unityUnpackLevel_eq hh hlv hhb hl.small hl.faces hl.big eu hd hsz hu hk h0 hb
  obtain ⟨st', e', hdst, hlen⟩ := hlevel hodd c hc
  refine ⟨?_, hk, hdst ▸ hlen⟩
  rw [e, e', Res.ok_bind, hdst]
  rfl

/-- A file with an odd number of block columns makes a build with overflow checks panic. -/
theorem unityCrunchUnpackLevel_panic {file dxt : List UInt8}
    (h : Spec.Crn.Unity.unpack file = some dxt) (hl : Limits file)
    (hck : Build.overflowChecks = true) (hodd : blocksX file % 2 = 1) :
    unityCrunchUnpackLevel file (asU 32 file.length) 0 = .panic := by
  obtain ⟨hh, hlv, hhb, bl, rfl, u, eu, hd, hsz, hu, bits, hb, h0, hk, hlevel⟩ := unity_unpack_some h hl
  obtain ⟨c, hc, e⟩ := unityUnpackLevel_eq hh hlv hhb hl.small hl.faces hl.big eu hd hsz hu hk h0 hb
  have hx : blocksX file < 2 ^ 15 := blocksOf_lt (be_lt file _ 2)
  have hy : blocksY file < 2 ^ 15 := blocksOf_lt (be_lt file _ 2)
  rw [e, unpackFormat_panic hu hk hx hy hck hodd, Res.panic_bind]

end Verif.Proofs.Crn.Unity
