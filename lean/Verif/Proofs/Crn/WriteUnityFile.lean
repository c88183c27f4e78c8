import Verif.Proofs.Crn.WriteUnity

/-! # Writing files of Unity's variant of Crunch: the file -/

namespace Verif.Proofs.Crn.Enc

open Verif Verif.Spec Verif.Spec.Crn Verif.Proofs.Crn

/-- The sections of a file. -/
def encodeUnity (format w h : Nat) (P : Palettes) (level : List Bool) : Sections where
  format := format
  w := w
  h := h
  n1 := P.ce.length
  n2 := P.cs.length
  n3 := P.ae.length
  n4 := P.as.length
  tb := packed tableBits
  c1 := packed (colourEndpointBits P.ce)
  c2 := packed (xorPaletteBits 4 colourOrder P.cs)
  a1 := packed (alphaEndpointBits P.ae)
  a2 := packed (xorPaletteBits 6 alphaOrder P.as)
  lv := packed level

section
variable {format w h : Nat} {P : Palettes} (hP : P.Ok) {level : List Bool}
include hP

theorem encodeUnity_fit (hf : format < 256) (hw : w < 65536) (hh : h < 65536)
    (hl : level.length < 2 ^ 34) : (encodeUnity format w h P level).Fit := by
  obtain ⟨-, -, -, -, h5, h6, h7, h8, -, -⟩ := hP
  have t := tableBits_length
  have e1 := colourEndpointBits_le P.ce
  have e2 := xorPaletteBits_le (show 4 ≤ 13 by omega) colourOrder P.cs
  have e3 := alphaEndpointBits_le P.ae
  have e4 := xorPaletteBits_le (show 6 ≤ 13 by omega) alphaOrder P.as
  have o5 : (encodeUnity format w h P level).o5 < 2 ^ 24 := by
    unfold Sections.o5 Sections.o4 Sections.o3 Sections.o2 Sections.o1 encodeUnity
    simp only [packed_length]
    omega
  refine ⟨hf, hw, hh, ?_, ?_, ?_, ?_, ?_, o5, ?_⟩
  · show P.ce.length < _; omega
  · show P.cs.length < _; omega
  · show P.ae.length < _; omega
  · show P.as.length < _; omega
  · have : (encodeUnity format w h P level).tb.length = 4212 := tables_length
    omega
  · show (encodeUnity format w h P level).o5 + (packed level).length < _
    rw [packed_length]; omega

theorem encodeUnity_unpack (hf : format ≤ 9) (hw : w < 65536) (hh : h < 65536)
    (hl : level.length < 2 ^ 34) {planes : List Plane} {order : List Nat}
    (hpl : Unity.planesOf format P.colour P.alpha = some (planes, order))
    (hpos : 0 < level.length) {blocks : List Unity.Block}
    (hblocks : Writes (Unity.grow (Unity.block (uniform 9) (planes.map Plane.indices)
      (Unity.even (blocksOf w))) (Unity.even (blocksOf h) * Unity.even (blocksOf w)) []) blocks level) :
    Unity.unpack (encodeUnity format w h P level).file =
      some ((Unity.levelBlocks {} 1 (blocksOf w) (blocksOf h) blocks).map
        (Unity.blockBytes planes order)).flatten := by
  have F := encodeUnity_fit hP (format := format) (by omega) hw hh hl (level := level)
  have hce := hP.ce_pos
  have hae := hP.ae_pos
  have htab := tableBits_length
  unfold Unity.unpack
  rw [if_pos ⟨⟨Sections.sig_eq F, by rw [Sections.headerSize_eq F]; omega, by
      rw [Sections.dataSize_eq F, Sections.file_length]; omega⟩, by rw [Sections.levels_eq F]; omega, by
      unfold headerBytes
      rw [Sections.levels_eq F, Sections.file_length]
      unfold Sections.total Sections.o5 Sections.o4 Sections.o3 Sections.o2 Sections.o1; omega⟩]
  have s0 : fileCodes (encodeUnity format w h P level).file =
      some ⟨uniform 9, uniform 13, uniform 13, uniform 13, uniform 13⟩ := by
    unfold fileCodes
    rw [Sections.tablesOfs_eq F, Sections.tablesSize_eq F, Sections.colorEndpoints_eq F,
      Sections.alphaEndpoints_eq F]
    refine readSection_ok (Writes.codes (by show P.ce.length ≠ 0; omega) (by show P.ae.length ≠ 0; omega))
      (by omega) (pre := encFields (encodeUnity format w h P level).fields)
      (post := (encodeUnity format w h P level).c1 ++ ((encodeUnity format w h P level).c2 ++
        ((encodeUnity format w h P level).a1 ++ ((encodeUnity format w h P level).a2 ++
          (encodeUnity format w h P level).lv)))) ?_ ?_ rfl
    · unfold Sections.file Sections.body
      simp only [List.append_assoc]; rfl
    · exact (Sections.header_length _).symm
  have s1 : filePalette (encodeUnity format w h P level).file
      (colorEndpoints (encodeUnity format w h P level).file) colourEndpointPalette = some P.ce := by
    unfold filePalette
    rw [Sections.colorEndpoints_eq F]
    refine readSection_ok (Writes.colourEndpoints hP.ce_len)
      (by unfold colourEndpointBits; rw [List.length_append, codeTable_length (by omega)]; omega)
      (pre := encFields (encodeUnity format w h P level).fields ++ (encodeUnity format w h P level).tb)
      (post := (encodeUnity format w h P level).c2 ++ ((encodeUnity format w h P level).a1 ++
        ((encodeUnity format w h P level).a2 ++ (encodeUnity format w h P level).lv))) ?_ ?_ rfl
    · unfold Sections.file Sections.body
      simp only [List.append_assoc]; rfl
    · rw [List.length_append, Sections.header_length]; rfl
  have s2 : filePalette (encodeUnity format w h P level).file
      (colorSelectors (encodeUnity format w h P level).file) (Unity.dxtSelectorPalette colourOrder 4) = some P.cs := by
    unfold filePalette
    rw [Sections.colorSelectors_eq F]
    refine readSection_ok (Writes.unityColourSelectors hP.cs_len)
      (by unfold xorPaletteBits; rw [List.length_append, codeTable_length (by omega)]; omega)
      (pre := encFields (encodeUnity format w h P level).fields ++ ((encodeUnity format w h P level).tb ++
        (encodeUnity format w h P level).c1))
      (post := (encodeUnity format w h P level).a1 ++
        ((encodeUnity format w h P level).a2 ++ (encodeUnity format w h P level).lv)) ?_ ?_ rfl
    · unfold Sections.file Sections.body
      simp only [List.append_assoc]; rfl
    · rw [List.length_append, List.length_append, Sections.header_length, ← Nat.add_assoc]; rfl
  have s3 : filePalette (encodeUnity format w h P level).file
      (alphaEndpoints (encodeUnity format w h P level).file) alphaEndpointPalette = some P.ae := by
    unfold filePalette
    rw [Sections.alphaEndpoints_eq F]
    refine readSection_ok (Writes.alphaEndpoints hP.ae_len)
      (by unfold alphaEndpointBits; rw [List.length_append, codeTable_length (by omega)]; omega)
      (pre := encFields (encodeUnity format w h P level).fields ++ ((encodeUnity format w h P level).tb ++
        ((encodeUnity format w h P level).c1 ++ (encodeUnity format w h P level).c2)))
      (post := (encodeUnity format w h P level).a2 ++ (encodeUnity format w h P level).lv) ?_ ?_ rfl
    · unfold Sections.file Sections.body
      simp only [List.append_assoc]; rfl
    · simp only [List.length_append, Sections.header_length, ← Nat.add_assoc]; rfl
  have s4 : filePalette (encodeUnity format w h P level).file
      (alphaSelectors (encodeUnity format w h P level).file) (Unity.dxtSelectorPalette alphaOrder 6) = some P.as := by
    unfold filePalette
    rw [Sections.alphaSelectors_eq F]
    refine readSection_ok (Writes.unityAlphaSelectors hP.as_len)
      (by unfold xorPaletteBits; rw [List.length_append, codeTable_length (by omega)]; omega)
      (pre := encFields (encodeUnity format w h P level).fields ++ ((encodeUnity format w h P level).tb ++
        ((encodeUnity format w h P level).c1 ++ ((encodeUnity format w h P level).c2 ++
          (encodeUnity format w h P level).a1))))
      (post := (encodeUnity format w h P level).lv) ?_ ?_ rfl
    · unfold Sections.file Sections.body
      simp only [List.append_assoc]; rfl
    · simp only [List.length_append, Sections.header_length, ← Nat.add_assoc]; rfl
  have hf' := Sections.format_eq F
  have hf0 : (encodeUnity format w h P level).format = format := rfl
  rw [hf0] at hf'
  have c1 : Unity.colourPlane (encodeUnity format w h P level).file
      ⟨uniform 9, uniform 13, uniform 13, uniform 13, uniform 13⟩ = some P.colour := by
    unfold Unity.colourPlane Unity.colourPalettes
    rw [if_neg (by rw [Sections.colorEndpoints_eq F]; show P.ce.length ≠ 0; omega),
      if_neg (by rw [hf']; omega), s1, s2]
    rfl
  have c2 : Unity.alphaPlane (encodeUnity format w h P level).file
      ⟨uniform 9, uniform 13, uniform 13, uniform 13, uniform 13⟩ = some P.alpha := by
    unfold Unity.alphaPlane
    rw [if_neg (by rw [Sections.alphaEndpoints_eq F]; show P.ae.length ≠ 0; omega), s3,
      if_neg (by rw [hf']; omega), s4]
    rfl
  have hcount : Unity.blockCount (encodeUnity format w h P level).file =
      Unity.even (blocksOf h) * Unity.even (blocksOf w) := by
    unfold Unity.blockCount blocksX blocksY
    rw [Sections.faces_eq F, Sections.width_eq F, Sections.height_eq F, Nat.one_mul]; rfl
  have hbx : blocksX (encodeUnity format w h P level).file = blocksOf w := by
    unfold blocksX
    rw [Sections.width_eq F]; rfl
  have hby : blocksY (encodeUnity format w h P level).file = blocksOf h := by
    unfold blocksY
    rw [Sections.height_eq F]; rfl
  have s5 : readSection (encodeUnity format w h P level).file
      (levelOfs (encodeUnity format w h P level).file 0)
      (levelEnd (encodeUnity format w h P level).file - levelOfs (encodeUnity format w h P level).file 0)
      (Unity.grow (Unity.block (uniform 9) (planes.map Plane.indices)
        (Unity.even (blocksX (encodeUnity format w h P level).file)))
        (Unity.blockCount (encodeUnity format w h P level).file) []) = some blocks := by
    rw [hcount, hbx]
    refine readSection_ok hblocks hpos
      (pre := encFields (encodeUnity format w h P level).fields ++ ((encodeUnity format w h P level).tb ++
        ((encodeUnity format w h P level).c1 ++ ((encodeUnity format w h P level).c2 ++
          ((encodeUnity format w h P level).a1 ++ (encodeUnity format w h P level).a2)))))
      (post := []) ?_ ?_ ?_
    · unfold Sections.file Sections.body
      simp only [List.append_assoc, List.append_nil]; rfl
    · rw [Sections.levelOfs_eq F]
      simp only [List.length_append, Sections.header_length, ← Nat.add_assoc]; rfl
    · unfold levelEnd
      rw [Sections.levels_eq F, if_neg (by omega), Sections.levelOfs_eq F, Sections.file_length]
      unfold Sections.total
      rw [Nat.add_sub_cancel_left]; rfl
  rw [s0]
  simp only [Option.bind_eq_bind, Option.bind_some]
  rw [if_neg (by rw [hf']; omega)]
  unfold Unity.wholeBlocks Unity.readLevel
  simp only [Option.bind_eq_bind, c1, c2, Option.bind_some, hf', hpl, hbx, hby, Sections.faces_eq F]
  rw [hbx] at s5
  simp only [s5, Option.bind_some]

end


/-! ## From blocks to files -/

/-- The indices of the given parts of the blocks in the palettes, in rows of `w` blocks. -/
def streamOf (planes : List Plane) (partE partS : Nat → Nat → List UInt8)
    (hE : ∀ i p n, planes[i]? = some p → partE i n ∈ p.endpoints)
    (hS : ∀ i p n, planes[i]? = some p → partS i n ∈ p.selectors) : Stream planes where
  e n i := (planes.getD i ⟨[], [], [], []⟩).endpoints.idxOf (partE i n)
  s n i := (planes.getD i ⟨[], [], [], []⟩).selectors.idxOf (partS i n)
  e_lt n i p h := by
    rw [getD_of h]; exact List.idxOf_lt_length_of_mem (hE i p _ h)
  s_lt n i p h := by
    rw [getD_of h]; exact List.idxOf_lt_length_of_mem (hS i p _ h)

theorem streamOf_block {planes : List Plane} {order : List Nat} (ho : ∀ i ∈ order, i < planes.length)
    {partE partS : Nat → Nat → List UInt8}
    {hE : ∀ i p n, planes[i]? = some p → partE i n ∈ p.endpoints}
    {hS : ∀ i p n, planes[i]? = some p → partS i n ∈ p.selectors} (n : Nat) :
    Unity.blockBytes planes order ((streamOf planes partE partS hE hS).block n) =
      order.flatMap fun i => partE i n ++ partS i n := by
  unfold Unity.blockBytes
  apply flatMap_congr'
  intro i hi
  have hi' := ho i hi
  have hp := List.getElem?_eq_getElem hi'
  show Plane.block _ (((List.range planes.length).map _).getD i 0)
    (((List.range planes.length).map _).getD i 0) = _
  rw [getD_range_map hi', getD_range_map hi']
  show Plane.block _ ((planes.getD i _).endpoints.idxOf _) ((planes.getD i _).selectors.idxOf _) = _
  rw [getD_of hp]
  unfold Plane.block
  rw [getD_idxOf (hE i _ _ hp), getD_idxOf (hS i _ _ hp)]

/-- A file for given blocks. `partE i k` and `partS i k` are the endpoints and the selectors of plane
`i` of block `k`. -/
theorem unityFile_exists {format w h : Nat} {P : Palettes} (hP : P.Ok) (hf : format ≤ 9)
    (hw : w < 65536) (hh : h < 65536) {planes : List Plane} {order : List Nat}
    (hpl : Unity.planesOf format P.colour P.alpha = some (planes, order)) (hn : planes.length ≤ 2)
    (ho : ∀ i ∈ order, i < planes.length)
    (hbig : 16 * (blocksOf h * blocksOf w) < 2 ^ 30)
    {raw : Nat} {data : List UInt8} (hdata : data.length = blocksOf h * blocksOf w * raw)
    (partE partS : Nat → Nat → List UInt8)
    (hE : ∀ i p k, planes[i]? = some p → k < blocksOf h * blocksOf w → partE i k ∈ p.endpoints)
    (hS : ∀ i p k, planes[i]? = some p → k < blocksOf h * blocksOf w → partS i k ∈ p.selectors)
    (hblk : ∀ k, k < blocksOf h * blocksOf w →
      (order.flatMap fun i => partE i k ++ partS i k) = Spec.blockBytes raw data k) :
    ∃ file, Unity.unpack file = some data ∧ Limits file ∧ width file = w ∧ height file = h ∧
      Crn.format file = format := by
  have hx : 0 < blocksOf w := by unfold blocksOf; omega
  have hy : 0 < blocksOf h := by unfold blocksOf; omega
  have hpos : 0 < blocksOf h * blocksOf w := Nat.mul_pos hy hx
  generalize hnx : blocksOf w = nx at *
  generalize hny : blocksOf h = ny at *
  let ex := Unity.even nx
  have hex : nx ≤ ex := by show nx ≤ Unity.even nx; unfold Unity.even; omega
  have hex2 : ex ≤ 2 * nx := by show Unity.even nx ≤ _; unfold Unity.even; omega
  have hey : ny ≤ Unity.even ny := by unfold Unity.even; omega
  have hey2 : Unity.even ny ≤ 2 * ny := by unfold Unity.even; omega
  let num := fun n => if n % ex < nx ∧ n / ex < ny then n / ex * nx + n % ex else 0
  have hnum : ∀ n, num n < ny * nx := by
    intro n
    show (if n % ex < nx ∧ n / ex < ny then n / ex * nx + n % ex else 0) < _
    split
    · rename_i hxy
      have := Nat.mul_le_mul_right nx (show n / ex + 1 ≤ ny by omega)
      rw [Nat.succ_mul] at this
      omega
    · exact hpos
  let L := streamOf planes (fun i n => partE i (num n)) (fun i n => partS i (num n))
    (fun i p n hp => hE i p _ hp (hnum n)) (fun i p n hp => hS i p _ hp (hnum n))
  have hsb : ∀ n, Unity.blockBytes planes order (L.block n) =
      order.flatMap fun i => partE i (num n) ++ partS i (num n) := fun n => streamOf_block ho n
  have hok : ∀ p ∈ planes, PlaneOk p := by
    intro p hp
    have : p = P.colour ∨ p = P.alpha := by
      unfold Unity.planesOf at hpl
      split at hpl
      · cases hpl; simp at hp; exact .inl hp
      · split at hpl
        · cases hpl; simp at hp; exact hp
        · split at hpl
          · cases hpl; simp at hp; exact .inr hp
          · split at hpl
            · cases hpl; simp at hp; exact .inr hp
            · exact absurd hpl (by simp)
    rcases this with rfl | rfl
    · exact hP.colour
    · exact hP.alpha
  let n := Unity.even ny * ex
  have hnle : n ≤ 4 * (ny * nx) := by
    have := Nat.mul_le_mul hey2 hex2
    rw [Nat.mul_mul_mul_comm] at this
    exact this
  have hn0 : 0 < n := Nat.mul_pos (by omega) (by omega)
  have hlen : (L.allBits ex n).length < 2 ^ 34 := by
    have h1 := L.allBits_le ex n
    have h2 := Nat.mul_le_mul hnle (show 9 + 26 * planes.length ≤ 61 by omega)
    omega
  have hlv := L.allBits_pos (w := ex) hn0
  have hU := encodeUnity_unpack hP hf hw hh hlen hpl hlv (blocks := (List.range n).map L.block)
    (by rw [hnx, hny]; exact L.all hok ex n)
  have F := encodeUnity_fit hP (format := format) (by omega) hw hh hlen
  refine ⟨_, ?_, Sections.limits F ?_ ?_, Sections.width_eq F, Sections.height_eq F, Sections.format_eq F⟩
  · rw [hU, hnx, hny, L.levelBlocks, List.map_flatMap]
    have e : ((List.range ny).flatMap fun y => ((List.range nx).map fun x =>
          L.block (y * Unity.even nx + x)).map (Unity.blockBytes planes order)) =
        (List.range ny).flatMap fun y => (List.range nx).map fun x => Spec.blockBytes raw data (y * nx + x) := by
      apply flatMap_congr'
      intro y hy'
      rw [List.map_map]
      apply List.map_congr_left
      intro x hx'
      have hx2 : x < nx := by simpa using hx'
      have hy2 : y < ny := by simpa using hy'
      refine ((hsb _).trans (hblk _ (hnum _))).trans ?_
      have hmod : (y * Unity.even nx + x) % ex = x := by
        show (y * ex + x) % ex = x
        rw [Nat.add_comm, Nat.add_mul_mod_self_right, Nat.mod_eq_of_lt (by omega)]
      have hdiv : (y * Unity.even nx + x) / ex = y := by
        show (y * ex + x) / ex = y
        rw [Nat.add_comm, Nat.add_mul_div_right _ _ (by omega), Nat.div_eq_of_lt (by omega), Nat.zero_add]
      show Spec.blockBytes raw data (if (y * Unity.even nx + x) % ex < nx ∧ (y * Unity.even nx + x) / ex < ny
        then (y * Unity.even nx + x) / ex * nx + (y * Unity.even nx + x) % ex else 0) = _
      rw [hmod, hdiv, if_pos ⟨hx2, hy2⟩]
    rw [e, range_mul, flatten_blocks, ← hdata, List.take_length]
  · show 0 < (packed _).length
    rw [packed_length]; omega
  · show 16 * (blocksOf h * blocksOf w) < _
    rw [hnx, hny]; exact hbig

end Verif.Proofs.Crn.Enc
