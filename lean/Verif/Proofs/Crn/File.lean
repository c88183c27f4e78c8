import Verif.Proofs.Crn.Level
import Verif.Proofs.CrnHeader
import Verif.Spec.CrnLimits

/-!
# Whole Crunch files
-/

namespace Verif.Proofs.Crn

open Verif Verif.Model Verif.Model.Crn Verif.Spec.Crn

variable [Build]

omit [Build] in
theorem palette_num_lt (file : List UInt8) (o : Nat) : (palette file o).num < 2 ^ 16 := be_lt file _ 2

/-- An unpacker that has read the tables and palettes of the file. -/
structure UnpackerOk (file : List UInt8) (cs : Codes) (colour alpha : Plane) (u : Unpacker)
    (E S E' S' : List Nat) : Prop where
  data : u.data = file
  size : u.dataSize = file.length
  header : u.header = specHeader file
  encoding : TablesOk cs.encoding u.tables.encoding
  colour : ColourPlaneOk colour u.tables.endpoint0 u.tables.selector0 E S
  colourEnds : u.colorEndpoints = E
  colourSels : u.colorSelectors = S
  alpha : AlphaPlaneOk alpha u.tables.endpoint1 u.tables.selector1 E' S'
  alphaEnds : u.alphaEndpoints = E'
  alphaSels : u.alphaSelectors = S'.flatMap words3
  alphaNum : 0 < E'.length → u.header.alphaSelectors.num = S'.length

theorem colour_ok {file : List UInt8} {cs : Codes} {colour : Plane} {t : CodeTables}
    (h : colourPlane file cs = some colour) (ht : CodesOk file cs t) (hl : SectionsInside file) :
    ∃ E S, (if (specHeader file).colorEndpoints.num ≠ 0 then do
        let e ← decodeColorEndpoints file (specHeader file)
        let s ← decodeColorSelectors file (specHeader file)
        pure (e, s)
      else pure ([], []) : Res (List Nat × List Nat)) = .ok (E, S) ∧
      ColourPlaneOk colour t.endpoint0 t.selector0 E S := by
  unfold colourPlane at h
  by_cases h0 : (colorEndpoints file).num = 0
  · rw [if_pos h0] at h
    obtain rfl := Option.some.inj h
    refine ⟨[], [], if_neg (fun hc => hc h0), rfl, rfl, by simp, by simp, by simp, by simp⟩
  · rw [if_neg h0] at h
    obtain ⟨e, h1, h⟩ := Option.bind_eq_some_iff.mp h
    obtain ⟨s, h2, h⟩ := Option.bind_eq_some_iff.mp h
    obtain rfl := Option.some.inj h
    obtain ⟨E, e1, p1, n1, _⟩ := colorEndpoints_ok h1 (hl.colours h0).1
    obtain ⟨S, e2, p2, n2, _⟩ := colorSelectors_ok h2 (hl.colours h0).2
    have htt := ht.colour (by omega)
    refine ⟨E, S, ?_, p1, p2, ?_, ?_, fun _ => htt.1, fun _ => htt.2⟩
    · refine (if_pos (show (specHeader file).colorEndpoints.num ≠ 0 from h0)).trans ?_
      rw [e1, Res.ok_bind, e2, Res.ok_bind]; rfl
    · rw [n1]; exact palette_num_lt _ _
    · rw [n2]; exact palette_num_lt _ _

theorem alpha_ok {file : List UInt8} {cs : Codes} {alpha : Plane} {t : CodeTables}
    (h : alphaPlane file cs = some alpha) (ht : CodesOk file cs t) (hl : SectionsInside file) :
    ∃ E S, (if (specHeader file).alphaEndpoints.num ≠ 0 then do
        let e ← decodeAlphaEndpoints file (specHeader file)
        let s ← decodeAlphaSelectors file (specHeader file)
        pure (e, s)
      else pure ([], []) : Res (List Nat × List Nat)) = .ok (E, S.flatMap words3) ∧
      AlphaPlaneOk alpha t.endpoint1 t.selector1 E S ∧
      (0 < E.length → (specHeader file).alphaSelectors.num = S.length) := by
  unfold alphaPlane at h
  by_cases h0 : (alphaEndpoints file).num = 0
  · rw [if_pos h0] at h
    obtain rfl := Option.some.inj h
    refine ⟨[], [], if_neg (fun hc => hc h0), ⟨rfl, rfl, by simp, by simp, by simp, by simp, by simp,
      by simp⟩, by simp⟩
  · rw [if_neg h0] at h
    obtain ⟨e, h1, h⟩ := Option.bind_eq_some_iff.mp h
    obtain ⟨s, h2, h⟩ := Option.bind_eq_some_iff.mp h
    obtain rfl := Option.some.inj h
    obtain ⟨E, e1, p1, n1, v1⟩ := alphaEndpoints_ok h1 (hl.alphas h0).1
    obtain ⟨S, e2, p2, n2, v2⟩ := alphaSelectors_ok h2 (hl.alphas h0).2
    have htt := ht.alpha (by omega)
    refine ⟨E, S, ?_, ⟨p1, p2, ?_, ?_, fun _ => htt.1, fun _ => htt.2, v1, v2⟩, fun _ => n2.symm⟩
    · refine (if_pos (show (specHeader file).alphaEndpoints.num ≠ 0 from h0)).trans ?_
      rw [e1, Res.ok_bind, e2, Res.ok_bind]; rfl
    · rw [n1]; exact palette_num_lt _ _
    · rw [n2]; exact palette_num_lt _ _

theorem init_ok {file : List UInt8} {cs : Codes} {colour alpha : Plane}
    (hh : HeaderOk file file.length) (hlen : headerBytes file ≤ file.length) (h74 : 74 ≤ file.length)
    (h1 : fileCodes file = some cs) (h2 : colourPlane file cs = some colour)
    (h3 : alphaPlane file cs = some alpha) (hl : SectionsInside file) :
    ∃ u E S E' S', Unpacker.init file file.length = .ok u ∧
      UnpackerOk file cs colour alpha u E S E' S' := by
  obtain ⟨t, et, ht⟩ := initTables_ok h1 hl.tables
  obtain ⟨E, S, ec, hc⟩ := colour_ok h2 ht hl
  obtain ⟨E', S', ea, ha, hn⟩ := alpha_ok h3 ht hl
  refine ⟨⟨file, file.length, specHeader file, t, E, S, E', S'.flatMap words3⟩, E, S, E', S', ?_,
    ⟨rfl, rfl, rfl, ht.encoding, hc, rfl, rfl, ha, rfl, rfl, hn⟩⟩
  unfold Unpacker.init
  rw [crndGetHeader_ok h74 hlen, if_pos hh, Res.lift_ok, Res.ok_bind]
  simp only
  rw [et, Res.ok_bind, ec, Res.ok_bind]
  simp only
  rw [ea, Res.ok_bind]
  rfl

/-! ## The first level -/

omit [Build] in
theorem blocksOf_pos (n : Nat) : 0 < blocksOf n := by unfold blocksOf; omega

omit [Build] in
theorem blocksOf_lt {n : Nat} (h : n < 2 ^ 16) : blocksOf n < 2 ^ 15 := by unfold blocksOf; omega

omit [Build] in
theorem blocksOf_shift {n : Nat} : (max n 1 + 3) >>> 2 = blocksOf n := by
  rw [Nat.shiftRight_eq_div_pow]; rfl

theorem unpackFormat_ok {file buf : List UInt8} {last : Nat} {cs : Codes} {colour alpha : Plane}
    {u : Unpacker} {E S E' S' : List Nat} (hu : UnpackerOk file cs colour alpha u E S E' S')
    {planes : List Plane} (hp : planesOf (format file) colour alpha = some planes)
    {nx ny cx cy B : Nat} (hB : B = if format file = 0 ∨ format file = 9 then 8 else 16)
    (hs : Sizes (faces file) nx ny cx cy)
    (hbig : B * (faces file * ny * nx + 2 * nx + 4) < 2 ^ 31)
    {l : List Chunk} {bits rest : List Bool}
    (h : scan (chunk cs.encoding planes) (faces file * cy * cx) (firstChunk planes) bits
      = some (l, rest)) {c : Codec} (hc : At buf last c bits) :
    ∃ st', unpackFormat u ⟨nx, ny, cx, cy, B * nx⟩
        { codec := c, dst := List.replicate (B * (faces file * ny * nx)) 0 } = .ok st' ∧
      st'.dst = (levelBlocks (faces file) nx ny l).flatten ∧
      st'.dst.length = B * (faces file * ny * nx) := by
  have hfmt : u.header.format = format file := by rw [hu.header]; rfl
  have hfac : u.header.faces = faces file := by rw [hu.header]; rfl
  have hflat : ∀ n B : Nat, (List.replicate n (List.replicate B (0 : UInt8))).flatten
      = List.replicate (B * n) 0 := by
    intro n B
    rw [List.flatten_replicate_replicate, Nat.mul_comm]
  unfold planesOf at hp
  unfold unpackFormat
  simp only [hfmt, hfac]
  by_cases f0 : format file = 0
  · rw [if_pos f0] at hp ⊢
    obtain rfl := Option.some.inj hp
    rw [if_pos (Or.inl f0)] at hB
    subst hB
    refine chunkLoop_ok (Or.inl rfl) (dxt1Chunk_ok hu.encoding hu.colour hu.colourEnds hu.colourSels rfl)
      hs rfl rfl rfl rfl hbig h ⟨hc, rfl, by simp [firstChunk], rfl, rfl, (hflat _ _).symm, ?_⟩
    intro b hb; rw [List.eq_of_mem_replicate hb]; simp
  · rw [if_neg f0] at hp ⊢
    by_cases f2 : 2 ≤ format file ∧ format file ≤ 6
    · rw [if_pos f2] at hp ⊢
      obtain rfl := Option.some.inj hp
      rw [if_neg (by omega)] at hB
      subst hB
      refine chunkLoop_ok (Or.inr rfl) (dxt5Chunk_ok hu.encoding hu.alpha hu.alphaEnds hu.alphaSels
        hu.alphaNum hu.colour hu.colourEnds hu.colourSels rfl)
        hs rfl rfl rfl rfl hbig h ⟨hc, rfl, by simp [firstChunk], rfl, rfl, (hflat _ _).symm, ?_⟩
      intro b hb; rw [List.eq_of_mem_replicate hb]; simp
    · rw [if_neg f2] at hp ⊢
      by_cases f7 : format file = 7 ∨ format file = 8
      · rw [if_pos f7] at hp
        obtain rfl := Option.some.inj hp
        rw [if_neg (by omega)] at hB
        subst hB
        rw [if_neg (by omega), if_pos f7]
        refine chunkLoop_ok (Or.inr rfl) (dxnChunk_ok hu.encoding hu.alpha hu.alphaEnds hu.alphaSels
          hu.alphaNum rfl)
          hs rfl rfl rfl rfl hbig h ⟨hc, rfl, by simp [firstChunk], rfl, rfl, (hflat _ _).symm, ?_⟩
        intro b hb; rw [List.eq_of_mem_replicate hb]; simp
      · rw [if_neg f7] at hp
        by_cases f9 : format file = 9
        · rw [if_pos f9] at hp ⊢
          obtain rfl := Option.some.inj hp
          rw [if_pos (Or.inr f9)] at hB
          subst hB
          refine chunkLoop_ok (Or.inl rfl) (dxt5aChunk_ok hu.encoding hu.alpha hu.alphaEnds hu.alphaSels
            hu.alphaNum rfl)
            hs rfl rfl rfl rfl hbig h ⟨hc, rfl, by simp [firstChunk], rfl, rfl, (hflat _ _).symm, ?_⟩
          intro b hb; rw [List.eq_of_mem_replicate hb]; simp
        · rw [if_neg f9] at hp
          exact absurd hp (by simp)

/-- What the specification reads before the chunks. -/
theorem unpack_some {file dxt : List UInt8} (h : unpack file = some dxt) :
    HeaderOk file file.length ∧ 0 < levels file ∧ headerBytes file ≤ file.length ∧
    ∃ cs colour alpha planes chunks, fileCodes file = some cs ∧ colourPlane file cs = some colour ∧
      alphaPlane file cs = some alpha ∧ planesOf (format file) colour alpha = some planes ∧
      readSection file (levelOfs file 0) (levelEnd file - levelOfs file 0)
        (scan (chunk cs.encoding planes) (chunkCount file) (firstChunk planes)) = some chunks ∧
      dxt = (levelBlocks (faces file) (blocksX file) (blocksY file) chunks).flatten := by
  unfold unpack at h
  split at h
  · rename_i h0
    obtain ⟨cs, h1, h⟩ := Option.bind_eq_some_iff.mp h
    obtain ⟨colour, h2, h⟩ := Option.bind_eq_some_iff.mp h
    obtain ⟨alpha, h3, h⟩ := Option.bind_eq_some_iff.mp h
    obtain ⟨planes, h4, h⟩ := Option.bind_eq_some_iff.mp h
    obtain ⟨chunks, h5, h⟩ := Option.bind_eq_some_iff.mp h
    exact ⟨h0.1, h0.2.1, h0.2.2, cs, colour, alpha, planes, chunks, h1, h2, h3, h4, h5,
      (Option.some.inj h).symm⟩
  · exact absurd h (by simp)

theorem unpackLevel2_ok {file src : List UInt8} {size last : Nat} {cs : Codes} {colour alpha : Plane}
    {u : Unpacker} {E S E' S' : List Nat} (hu : UnpackerOk file cs colour alpha u E S E' S')
    {planes : List Plane} (hp : planesOf (format file) colour alpha = some planes)
    {B : Nat} (hB : B = if format file = 0 ∨ format file = 9 then 8 else 16)
    (hf : 0 < faces file) (hshape : faces file ≤ 1 ∨ blocksY file % 2 = 0)
    (hbig : 16 * (faces file * blocksY file * blocksX file) < 2 ^ 30)
    {l : List Chunk} {bits rest : List Bool}
    (h : scan (chunk cs.encoding planes) (chunkCount file) (firstChunk planes) bits = some (l, rest))
    {c : Codec} (hc0 : Codec.start src size = .ok c) (hc : At src last c bits) :
    unpackLevel2 u src size (B * blocksX file * blocksY file) (blocksX file * B) 0
      = .ok (levelBlocks (faces file) (blocksX file) (blocksY file) l).flatten ∧
    (levelBlocks (faces file) (blocksX file) (blocksY file) l).flatten.length
      = B * (faces file * blocksY file * blocksX file) := by
  have hfmt : u.header.format = format file := by rw [hu.header]; rfl
  have hfac : u.header.faces = faces file := by rw [hu.header]; rfl
  have hw : u.header.width = width file := by rw [hu.header]; rfl
  have hh : u.header.height = height file := by rw [hu.header]; rfl
  have hwl : width file < 2 ^ 16 := be_lt file _ 2
  have hhl : height file < 2 ^ 16 := be_lt file _ 2
  have hfl : faces file < 2 ^ 8 := be_lt file _ 1
  have hnx : blocksX file < 2 ^ 15 := blocksOf_lt hwl
  have hny : blocksY file < 2 ^ 15 := blocksOf_lt hhl
  have hnx0 : 0 < blocksX file := blocksOf_pos _
  have hny0 : 0 < blocksY file := blocksOf_pos _
  have hBB : B = 8 ∨ B = 16 := by split at hB <;> omega
  have hT : blocksY file * blocksX file ≤ faces file * blocksY file * blocksX file := by
    rw [Nat.mul_assoc]; exact Nat.le_mul_of_pos_left _ hf
  have hT2 : B * blocksX file * blocksY file = B * (blocksY file * blocksX file) := by
    rw [Nat.mul_assoc, Nat.mul_comm (blocksX file)]
  have hT3 : B * blocksX file * blocksY file * faces file
      = B * (faces file * blocksY file * blocksX file) := by
    rw [hT2, Nat.mul_assoc, Nat.mul_comm _ (faces file), Nat.mul_assoc]
  have hbits : ∀ n, n < 2 ^ 16 → shrU 32 n 0 = .ok n := fun n _ => by
    rw [shrU_ok (by omega)]; rfl
  unfold chunkCount at h
  obtain ⟨st', e, hd, hdl⟩ := unpackFormat_ok hu hp hB
    (⟨rfl, rfl, hnx0, hnx, hny, hshape⟩ : Sizes (faces file) (blocksX file) (blocksY file) _ _)
    (by rcases hBB with rfl | rfl <;> omega) h hc
  refine ⟨?_, hd ▸ hdl⟩
  unfold unpackLevel2
  rw [hw, hh, hbits _ hwl, Res.lift_ok, Res.ok_bind, hbits _ hhl, Res.lift_ok, Res.ok_bind,
    addU_ok (by omega), Res.lift_ok, Res.ok_bind, addU_ok (by omega), Res.lift_ok, Res.ok_bind]
  simp only [blocksOf_shift, hfmt, ← hB, hfac]
  rw [show blocksOf (width file) = blocksX file from rfl, show blocksOf (height file) = blocksY file from rfl]
  rw [mulU_ok (by rcases hBB with rfl | rfl <;> omega), Res.lift_ok, Res.ok_bind]
  rw [if_neg (by
    rintro ⟨_, hc | hc⟩
    · rw [Nat.mul_comm] at hc; omega
    · apply hc
      rw [show (3 : Nat) = 2 ^ 2 - 1 from rfl, Nat.and_two_pow_sub_one_eq_mod]
      rcases hBB with rfl | rfl <;> omega)]
  rw [if_neg (by rcases hBB with rfl | rfl <;> omega), Nat.mul_comm (blocksX file) B]
  rw [mulU_ok (by rw [hT3]; rcases hBB with rfl | rfl <;> omega), Res.lift_ok, Res.ok_bind,
    mulU_ok (by rw [hT2]; rcases hBB with rfl | rfl <;> omega), Res.lift_ok, Res.ok_bind,
    if_neg (by omega), addU_ok (by omega), Res.lift_ok, Res.ok_bind, addU_ok (by omega), Res.lift_ok,
    Res.ok_bind, hc0, Res.orErr_ok, Res.ok_bind, hT3]
  have es : ∀ n : Nat, (n + 1) >>> 1 = (n + 1) / 2 := fun n => by
    rw [Nat.shiftRight_eq_div_pow]
  rw [es, es, e, Res.ok_bind, hd]
  rfl

theorem bytesPerDxtBlock_ok {n : Nat} (h : n = 0 ∨ (2 ≤ n ∧ n ≤ 9)) :
    bytesPerDxtBlock (crnFormatOf n) = .ok (if n = 0 ∨ n = 9 then 8 else 16) := by
  have key : ∀ v : Fin 10, v.val = 0 ∨ 2 ≤ v.val →
      bytesPerDxtBlock (crnFormatOf v.val) = .ok (if v.val = 0 ∨ v.val = 9 then 8 else 16) := by
    intro v
    match v with
    | ⟨0, _⟩ | ⟨2, _⟩ | ⟨3, _⟩ | ⟨4, _⟩ | ⟨5, _⟩ | ⟨6, _⟩ | ⟨7, _⟩ | ⟨8, _⟩ | ⟨9, _⟩ => intro _; rfl
    | ⟨1, _⟩ => intro h; simp at h
  exact key ⟨n, by omega⟩ (by simp only; omega)

theorem crunchUnpackLevel_ok {file dxt : List UInt8} (h : unpack file = some dxt)
    (hl : Limits file) :
    crunchUnpackLevel file (asU 32 file.length) 0
      = .ok { format := crnFormatOf (format file), dxtData := dxt, faces := faces file } ∧
    (format file = 0 ∨ (2 ≤ format file ∧ format file ≤ 9)) ∧
    dxt.length = (if format file = 0 ∨ format file = 9 then 8 else 16)
      * (faces file * blocksY file * blocksX file) := by
  obtain ⟨hh, hlv, hhb, cs, colour, alpha, planes, chunks, h1, h2, h3, h4, h5, rfl⟩ := unpack_some h
  have h74 : 74 ≤ file.length := by unfold headerBytes at hhb; omega
  obtain ⟨hsmall, hins, hf, hshape, hbig⟩ := hl
  obtain ⟨u, E, S, E', S', eu, hu⟩ := init_ok hh hhb h74 h1 h2 h3 hins
  obtain ⟨bits, rest, hb, h, h0, hend⟩ := readSection_some h5
  obtain ⟨es, c, ec, hc⟩ := section_start hb
  have hfmt : format file = 0 ∨ (2 ≤ format file ∧ format file ≤ 9) := by
    unfold planesOf at h4
    split at h4
    · omega
    · split at h4
      · omega
      · split at h4
        · omega
        · split at h4
          · omega
          · exact absurd h4 (by simp)
  have hwl : width file < 2 ^ 16 := be_lt file _ 2
  have hhl : height file < 2 ^ 16 := be_lt file _ 2
  have hnx : blocksX file < 2 ^ 15 := blocksOf_lt hwl
  have hnx0 : 0 < blocksX file := blocksOf_pos _
  have hny0 : 0 < blocksY file := blocksOf_pos _
  generalize hB : (if format file = 0 ∨ format file = 9 then 8 else 16) = B
  have hBB : B = 8 ∨ B = 16 := by split at hB <;> omega
  have hT : blocksY file * blocksX file ≤ faces file * blocksY file * blocksX file := by
    rw [Nat.mul_assoc]; exact Nat.le_mul_of_pos_left _ hf
  have hT2 : B * blocksX file * blocksY file = B * (blocksY file * blocksX file) := by
    rw [Nat.mul_assoc, Nat.mul_comm (blocksX file)]
  have hTp : 0 < blocksY file * blocksX file := Nat.mul_pos hny0 hnx0
  have hbits : ∀ n, n < 2 ^ 16 → shrU 32 n 0 = .ok n := fun n _ => by
    rw [shrU_ok (by omega)]; rfl
  obtain ⟨hlevel, hdl⟩ := unpackLevel2_ok hu h4 hB.symm hf hshape hbig h ec hc
  have hofs : u.header.levelOfs[0]? = some (levelOfs file 0) := by
    rw [hu.header]
    show ((List.range (levels file)).map (levelOfs file))[0]? = _
    rw [List.getElem?_map, List.getElem?_range hlv]; rfl
  have hnext : nextLevelOfs u 0 = .ok (levelEnd file) := by
    unfold nextLevelOfs levelEnd
    rw [addU_ok (by omega), Out.ok_bind]
    have hlvs : u.header.levels = levels file := by rw [hu.header]; rfl
    rw [hlvs]
    by_cases hl1 : 1 < levels file
    · refine (if_pos hl1).trans ?_
      rw [if_pos hl1]
      apply idx_of_some
      rw [hu.header]
      show ((List.range (levels file)).map (levelOfs file))[0 + 1]? = _
      rw [List.getElem?_map, List.getElem?_range hl1]; rfl
    · refine (if_neg hl1).trans ?_
      rw [if_neg hl1, hu.size]; rfl
  have hunpack : unpackLevel u (B * blocksX file * blocksY file) (blocksX file * B) 0
      = .ok (levelBlocks (faces file) (blocksX file) (blocksY file) chunks).flatten := by
    unfold unpackLevel
    rw [if_neg (by rw [hT2]; rcases hBB with rfl | rfl <;> omega), idx_of_some hofs, Res.lift_ok,
      Res.ok_bind, hnext, Res.lift_ok, Res.ok_bind, if_neg (by omega), hu.data, es, Res.lift_ok,
      Res.ok_bind, subU_ok (by omega), Res.lift_ok, Res.ok_bind, hlevel]
  refine ⟨?_, hfmt, hdl⟩
  unfold crunchUnpackLevel
  rw [show asU 32 file.length = file.length from Nat.mod_eq_of_lt hsmall,
    textureInfo_ok h74 rfl hhb hh (by omega), Res.lift_ok, Res.ok_bind]
  simp only
  rw [if_neg (by simp)]
  unfold unpackBegin
  rw [if_neg (by omega), eu, Res.orErr_ok, Res.ok_bind, hbits _ hwl, Res.lift_ok, Res.ok_bind,
    hbits _ hhl, Res.lift_ok, Res.ok_bind, addU_ok (by omega), Res.lift_ok, Res.ok_bind,
    addU_ok (by omega), Res.lift_ok, Res.ok_bind, bytesPerDxtBlock_ok hfmt, hB, Res.ok_bind]
  rw [Nat.max_comm 1 (width file), Nat.max_comm 1 (height file), blocksOf_shift, blocksOf_shift,
    show blocksOf (width file) = blocksX file from rfl, show blocksOf (height file) = blocksY file from rfl,
    Nat.max_eq_right (show 1 ≤ blocksX file from hnx0), Nat.max_eq_right (show 1 ≤ blocksY file from hny0)]
  rw [mulU_ok (by rcases hBB with rfl | rfl <;> omega), Res.lift_ok, Res.ok_bind,
    mulU_ok (by
      rw [Nat.mul_comm (blocksX file) B, hT2]
      rcases hBB with rfl | rfl <;> omega), Res.lift_ok, Res.ok_bind]
  rw [show blocksX file * B * blocksY file = B * blocksX file * blocksY file by
    rw [Nat.mul_comm (blocksX file) B], hunpack, Res.ok_bind]
  rfl

end Verif.Proofs.Crn
