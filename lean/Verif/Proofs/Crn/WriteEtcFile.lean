import Verif.Proofs.Crn.WriteEtcLevel
import Verif.Proofs.Crn.WriteUnityFile

/-! # Writing ETC files of Unity's variant of Crunch -/

namespace Verif.Proofs.Crn.Enc

open Verif Verif.Spec Verif.Spec.Crn Verif.Proofs.Crn

/-- The palettes of an ETC file; without alpha `ae` is empty. -/
structure EtcPalettes where
  ce : List Unity.EtcColour
  cs : List (List Nat)
  ae : List (List UInt8)
  as : List (List Nat)

namespace EtcPalettes

structure Ok (P : EtcPalettes) : Prop where
  ce_ok : ∀ e ∈ P.ce, EtcOk e
  cs_ok : ∀ e ∈ P.cs, SelOk 4 e
  ae_len : ∀ e ∈ P.ae, e.length = 2
  as_ok : ∀ e ∈ P.as, SelOk 8 e
  ce_num : P.ce.length ≤ 8192
  cs_num : P.cs.length ≤ 8192
  ae_num : P.ae.length ≤ 8192
  as_num : P.as.length ≤ 8192
  ce_pos : 0 < P.ce.length

end EtcPalettes

/-- The code of the alpha indices. -/
def alphaCode (n : Nat) : List Nat := if n = 0 then [] else uniform 13

/-- The bits of the tables. -/
def etcTableBits (n : Nat) : List Bool :=
  codeTable 9 ++ ((codeTable 13 ++ codeTable 13) ++ (if n = 0 then [] else codeTable 13 ++ codeTable 13))

theorem Writes.etcCodes {n m : Nat} (hn : n ≠ 0) :
    Writes (Crn.codes n m)
      ⟨Enc.uniform 9, Enc.uniform 13, Enc.uniform 13, alphaCode m, alphaCode m⟩ (etcTableBits m) := by
  have h2 : Writes (Crn.codePair m) (alphaCode m, alphaCode m)
      (if m = 0 then [] else codeTable 13 ++ codeTable 13) := by
    unfold alphaCode
    by_cases h : m = 0
    · simp only [h, if_true]
      unfold Crn.codePair
      exact Writes.pure _
    · simp only [h, if_false]
      exact Writes.codePair h
  unfold Crn.codes etcTableBits
  refine (Writes.prefixCode (by omega) (by omega)).bind (Writes.require (by omega) ?_)
  exact (Writes.codePair hn).bind h2.map

theorem etcTableBits_length (n : Nat) : 0 < (etcTableBits n).length ∧ (etcTableBits n).length ≤ 33690 := by
  unfold etcTableBits
  simp only [List.length_append, codeTable_length (show 9 ≤ 13 by omega),
    codeTable_length (show 13 ≤ 13 by omega)]
  split
  · simp
  · simp only [List.length_append, codeTable_length (show 13 ≤ 13 by omega)]; omega

attribute [irreducible] etcTableBits

/-- The sections of a file. -/
def encodeEtc (format w h : Nat) (P : EtcPalettes) (level : List Bool) : Sections where
  format := format
  w := w
  h := h
  n1 := P.ce.length
  n2 := P.cs.length
  n3 := P.ae.length
  n4 := P.as.length
  tb := packed (etcTableBits P.ae.length)
  c1 := packed (etcColourBits P.ce)
  c2 := packed (entryBits 4 4 P.cs)
  a1 := packed (alphaEndpointBits P.ae)
  a2 := packed (entryBits 6 8 P.as)
  lv := packed level

section
variable {format w h : Nat} {P : EtcPalettes} (hP : P.Ok) {level : List Bool}
include hP

theorem encodeEtc_fit (hf : format < 256) (hw : w < 65536) (hh : h < 65536)
    (hl : level.length < 2 ^ 34) : (encodeEtc format w h P level).Fit := by
  obtain ⟨-, h2, -, h4, h5, h6, h7, h8, -⟩ := hP
  have t := etcTableBits_length P.ae.length
  have e1 := etcColourBits_le P.ce
  have e2 := entryBits_le (show 4 ≤ 13 by omega) 4 (S := P.cs) (fun s hs => (h2 s hs).1)
  have e3 := alphaEndpointBits_le P.ae
  have e4 := entryBits_le (show 6 ≤ 13 by omega) 8 (S := P.as) (fun s hs => (h4 s hs).1)
  have o5 : (encodeEtc format w h P level).o5 < 2 ^ 24 := by
    unfold Sections.o5 Sections.o4 Sections.o3 Sections.o2 Sections.o1 encodeEtc
    simp only [packed_length]
    omega
  refine ⟨hf, hw, hh, ?_, ?_, ?_, ?_, ?_, o5, ?_⟩
  · show P.ce.length < _; omega
  · show P.cs.length < _; omega
  · show P.ae.length < _; omega
  · show P.as.length < _; omega
  · show (packed _).length < _
    rw [packed_length]; omega
  · show (encodeEtc format w h P level).o5 + (packed level).length < _
    rw [packed_length]; omega

/-- What the sections of the file hold. -/
theorem encodeEtc_sections (F : (encodeEtc format w h P level).Fit) :
    let file := (encodeEtc format w h P level).file
    fileCodes file = some ⟨uniform 9, uniform 13, uniform 13, alphaCode P.ae.length, alphaCode P.ae.length⟩ ∧
    readSection file (colorEndpoints file).ofs (colorEndpoints file).size (Unity.etcColours (colorEndpoints file).num)
      = some P.ce ∧
    readSection file (colorSelectors file).ofs (colorSelectors file).size
      (Unity.selectorEntries 4 (colorSelectors file).num) = some P.cs ∧
    filePalette file (alphaEndpoints file) alphaEndpointPalette = some P.ae ∧
    readSection file (alphaSelectors file).ofs (alphaSelectors file).size
      (Unity.selectorEntries 8 (alphaSelectors file).num) = some P.as := by
  have hce := hP.ce_pos
  have htab := etcTableBits_length P.ae.length
  dsimp only
  refine ⟨?_, ?_, ?_, ?_, ?_⟩
  · unfold fileCodes
    rw [Sections.tablesOfs_eq F, Sections.tablesSize_eq F, Sections.colorEndpoints_eq F,
      Sections.alphaEndpoints_eq F]
    refine readSection_ok (Writes.etcCodes (m := P.ae.length) (by show P.ce.length ≠ 0; omega))
      (by omega) (pre := encFields (encodeEtc format w h P level).fields)
      (post := (encodeEtc format w h P level).c1 ++ ((encodeEtc format w h P level).c2 ++
        ((encodeEtc format w h P level).a1 ++ ((encodeEtc format w h P level).a2 ++
          (encodeEtc format w h P level).lv)))) ?_ ?_ rfl
    · unfold Sections.file Sections.body
      simp only [List.append_assoc]; rfl
    · exact (Sections.header_length _).symm
  · rw [Sections.colorEndpoints_eq F]
    refine readSection_ok (Writes.etcColours hP.ce_ok) (etcColourBits_pos _)
      (pre := encFields (encodeEtc format w h P level).fields ++ (encodeEtc format w h P level).tb)
      (post := (encodeEtc format w h P level).c2 ++ ((encodeEtc format w h P level).a1 ++
        ((encodeEtc format w h P level).a2 ++ (encodeEtc format w h P level).lv))) ?_ ?_ rfl
    · unfold Sections.file Sections.body
      simp only [List.append_assoc]; rfl
    · rw [List.length_append, Sections.header_length]; rfl
  · rw [Sections.colorSelectors_eq F]
    refine readSection_ok (Writes.selectorEntries (K := 4) (j := 2) (by omega) (by omega) (by omega) hP.cs_ok)
      (entryBits_pos (by omega) _ _)
      (pre := encFields (encodeEtc format w h P level).fields ++ ((encodeEtc format w h P level).tb ++
        (encodeEtc format w h P level).c1))
      (post := (encodeEtc format w h P level).a1 ++
        ((encodeEtc format w h P level).a2 ++ (encodeEtc format w h P level).lv)) ?_ ?_ rfl
    · unfold Sections.file Sections.body
      simp only [List.append_assoc]; rfl
    · rw [List.length_append, List.length_append, Sections.header_length, ← Nat.add_assoc]; rfl
  · unfold filePalette
    rw [Sections.alphaEndpoints_eq F]
    refine readSection_ok (Writes.alphaEndpoints hP.ae_len)
      (by unfold alphaEndpointBits; rw [List.length_append, codeTable_length (by omega)]; omega)
      (pre := encFields (encodeEtc format w h P level).fields ++ ((encodeEtc format w h P level).tb ++
        ((encodeEtc format w h P level).c1 ++ (encodeEtc format w h P level).c2)))
      (post := (encodeEtc format w h P level).a2 ++ (encodeEtc format w h P level).lv) ?_ ?_ rfl
    · unfold Sections.file Sections.body
      simp only [List.append_assoc]; rfl
    · simp only [List.length_append, Sections.header_length, ← Nat.add_assoc]; rfl
  · rw [Sections.alphaSelectors_eq F]
    refine readSection_ok (Writes.selectorEntries (K := 6) (j := 3) (by omega) (by omega) (by omega) hP.as_ok)
      (entryBits_pos (by omega) _ _)
      (pre := encFields (encodeEtc format w h P level).fields ++ ((encodeEtc format w h P level).tb ++
        ((encodeEtc format w h P level).c1 ++ ((encodeEtc format w h P level).c2 ++
          (encodeEtc format w h P level).a1))))
      (post := (encodeEtc format w h P level).lv) ?_ ?_ rfl
    · unfold Sections.file Sections.body
      simp only [List.append_assoc]; rfl
    · simp only [List.length_append, Sections.header_length, ← Nat.add_assoc]; rfl

omit hP in
theorem encodeEtc_level {β : Type} (F : (encodeEtc format w h P level).Fit) (hpos : 0 < level.length) (d : β)
    (r : Nat → List β → Reader β) {blocks : List β}
    (hblocks : Writes (Unity.grow (r (Unity.even (blocksOf w))) (Unity.even (blocksOf h) * Unity.even (blocksOf w)) [])
      blocks level) :
    Unity.readLevel (encodeEtc format w h P level).file d r =
      some (Unity.levelBlocks d 1 (blocksOf w) (blocksOf h) blocks) := by
  have hcount : Unity.blockCount (encodeEtc format w h P level).file =
      Unity.even (blocksOf h) * Unity.even (blocksOf w) := by
    unfold Unity.blockCount blocksX blocksY
    rw [Sections.faces_eq F, Sections.width_eq F, Sections.height_eq F, Nat.one_mul]; rfl
  have hbx : blocksX (encodeEtc format w h P level).file = blocksOf w := by
    unfold blocksX
    rw [Sections.width_eq F]; rfl
  have hby : blocksY (encodeEtc format w h P level).file = blocksOf h := by
    unfold blocksY
    rw [Sections.height_eq F]; rfl
  have s5 : readSection (encodeEtc format w h P level).file
      (levelOfs (encodeEtc format w h P level).file 0)
      (levelEnd (encodeEtc format w h P level).file - levelOfs (encodeEtc format w h P level).file 0)
      (Unity.grow (r (Unity.even (blocksX (encodeEtc format w h P level).file)))
        (Unity.blockCount (encodeEtc format w h P level).file) []) = some blocks := by
    rw [hcount, hbx]
    refine readSection_ok hblocks hpos
      (pre := encFields (encodeEtc format w h P level).fields ++ ((encodeEtc format w h P level).tb ++
        ((encodeEtc format w h P level).c1 ++ ((encodeEtc format w h P level).c2 ++
          ((encodeEtc format w h P level).a1 ++ (encodeEtc format w h P level).a2)))))
      (post := []) ?_ ?_ ?_
    · unfold Sections.file Sections.body
      simp only [List.append_assoc, List.append_nil]; rfl
    · rw [Sections.levelOfs_eq F]
      simp only [List.length_append, Sections.header_length, ← Nat.add_assoc]; rfl
    · unfold levelEnd
      rw [Sections.levels_eq F, if_neg (by omega), Sections.levelOfs_eq F, Sections.file_length]
      unfold Sections.total
      rw [Nat.add_sub_cancel_left]; rfl
  unfold Unity.readLevel
  rw [s5, Sections.faces_eq F, hbx, hby]
  rfl

omit hP in
theorem encodeEtc_header (F : (encodeEtc format w h P level).Fit) :
    HeaderOk (encodeEtc format w h P level).file (encodeEtc format w h P level).file.length ∧
    0 < levels (encodeEtc format w h P level).file ∧
    headerBytes (encodeEtc format w h P level).file ≤ (encodeEtc format w h P level).file.length :=
  ⟨⟨Sections.sig_eq F, by rw [Sections.headerSize_eq F]; omega, by
      rw [Sections.dataSize_eq F, Sections.file_length]; omega⟩, by rw [Sections.levels_eq F]; omega, by
      unfold headerBytes
      rw [Sections.levels_eq F, Sections.file_length]
      unfold Sections.total Sections.o5 Sections.o4 Sections.o3 Sections.o2 Sections.o1; omega⟩

end

end Verif.Proofs.Crn.Enc
