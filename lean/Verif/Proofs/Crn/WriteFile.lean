import Verif.Proofs.Crn.WriteLevel
import Verif.Spec.CrnLimits

/-! # Writing Crunch files -/

namespace Verif.Proofs.Crn.Enc

open Verif Verif.Spec Verif.Spec.Crn Verif.Proofs.Crn

/-! ## Header fields -/

theorem leNat_leBytes (n v : Nat) : leNat (leBytes n v) = v % 256 ^ n := by
  induction n generalizing v with
  | zero => simp [leBytes, leNat, Nat.mod_one]
  | succ n ih =>
    have e : leBytes (n + 1) v = UInt8.ofNat v :: leBytes n (v / 256) := by
      unfold leBytes
      rw [List.range_succ_eq_map, List.map_cons, List.map_map, Nat.pow_zero, Nat.div_one]
      congr 1
      apply List.map_congr_left
      intro i _
      show UInt8.ofNat (v / 256 ^ (i + 1)) = UInt8.ofNat (v / 256 / 256 ^ i)
      rw [Nat.pow_succ, Nat.mul_comm, Nat.div_div_eq_div_mul]
    rw [e, leNat, ih, UInt8.toNat_ofNat', show 256 ^ (n + 1) = 256 * 256 ^ n from Nat.pow_succ', Nat.mod_mul]

/-- The `n` bytes of `v`, highest byte first. -/
def beBytes (n v : Nat) : List UInt8 := (leBytes n v).reverse

theorem beBytes_length (n v : Nat) : (beBytes n v).length = n := by simp [beBytes, leBytes]

/-- Fields of given sizes. -/
def encFields (fs : List (Nat × Nat)) : List UInt8 := fs.flatMap fun p => beBytes p.1 p.2

theorem encFields_length (fs : List (Nat × Nat)) : (encFields fs).length = (fs.map Prod.fst).sum := by
  induction fs with
  | nil => rfl
  | cons p fs ih =>
    unfold encFields at ih ⊢
    rw [List.flatMap_cons, List.length_append, ih, beBytes_length]; simp

theorem be_at {fs : List (Nat × Nat)} {body : List UInt8} {ofs n v : Nat} (i : Nat)
    (hi : fs[i]? = some (n, v)) (ho : ((fs.take i).map Prod.fst).sum = ofs) (hv : v < 256 ^ n) :
    be (encFields fs ++ body) ofs n = v := by
  obtain ⟨hlt, he⟩ := List.getElem?_eq_some_iff.mp hi
  have e : encFields fs ++ body =
      encFields (fs.take i) ++ (beBytes n v ++ (encFields (fs.drop (i + 1)) ++ body)) := by
    conv => lhs; rw [← List.take_append_drop i fs, List.drop_eq_getElem_cons hlt, he]
    unfold encFields
    rw [List.flatMap_append, List.flatMap_cons]
    simp only [List.append_assoc]
  unfold be
  rw [e, List.drop_left' ((encFields_length _).trans ho), List.take_left' (beBytes_length n v)]
  unfold beNat beBytes
  rw [List.reverse_reverse, leNat_leBytes, Nat.mod_eq_of_lt hv]

/-! ## Files -/

/-- What a file is made of. -/
structure Sections where
  format : Nat
  w : Nat
  h : Nat
  n1 : Nat
  n2 : Nat
  n3 : Nat
  n4 : Nat
  tb : List UInt8
  c1 : List UInt8
  c2 : List UInt8
  a1 : List UInt8
  a2 : List UInt8
  lv : List UInt8

namespace Sections
variable (S : Sections)

def o1 : Nat := 74 + S.tb.length
def o2 : Nat := S.o1 + S.c1.length
def o3 : Nat := S.o2 + S.c2.length
def o4 : Nat := S.o3 + S.a1.length
def o5 : Nat := S.o4 + S.a2.length
def total : Nat := S.o5 + S.lv.length

def fields : List (Nat × Nat) :=
  [(2, 0x4878), (2, 74), (2, 0), (4, S.total), (2, 0), (2, S.w), (2, S.h), (1, 1), (1, 1), (1, S.format),
   (2, 0), (4, 0), (4, 0), (4, 0),
   (3, S.o1), (3, S.c1.length), (2, S.n1), (3, S.o2), (3, S.c2.length), (2, S.n2),
   (3, S.o3), (3, S.a1.length), (2, S.n3), (3, S.o4), (3, S.a2.length), (2, S.n4),
   (2, S.tb.length), (3, 74), (4, S.o5)]

def body : List UInt8 := S.tb ++ (S.c1 ++ (S.c2 ++ (S.a1 ++ (S.a2 ++ S.lv))))

def file : List UInt8 := encFields S.fields ++ S.body

structure Fit : Prop where
  format : S.format < 256
  w : S.w < 65536
  h : S.h < 65536
  n1 : S.n1 < 65536
  n2 : S.n2 < 65536
  n3 : S.n3 < 65536
  n4 : S.n4 < 65536
  tb : S.tb.length < 65536
  o5 : S.o5 < 2 ^ 24
  total : S.total < 2 ^ 32

/-- The sizes of the fields. -/
def widths : List Nat := [2, 2, 2, 4, 2, 2, 2, 1, 1, 1, 2, 4, 4, 4, 3, 3, 2, 3, 3, 2, 3, 3, 2, 3, 3, 2, 2, 3, 4]

theorem fields_widths : S.fields.map Prod.fst = widths := by
  simp only [fields, widths, List.map_cons, List.map_nil]

theorem header_length : (encFields S.fields).length = 74 := by
  rw [encFields_length, fields_widths]; decide

variable {S} in
theorem field_at {ofs n v : Nat} (i : Nat) (hi : S.fields[i]? = some (n, v))
    (ho : (widths.take i).sum = ofs) (hv : v < 256 ^ n) : be S.file ofs n = v :=
  be_at i hi (by rw [List.map_take, fields_widths]; exact ho) hv

theorem file_length : S.file.length = S.total := by
  unfold file body total o5 o4 o3 o2 o1
  simp only [List.length_append, S.header_length]
  omega

variable {S} (F : S.Fit)
include F

set_option linter.unusedSectionVars false in
theorem sig_eq : sig S.file = 'H'.toNat * 256 + 'x'.toNat := field_at 0 rfl (by decide) (by decide)
set_option linter.unusedSectionVars false in
theorem headerSize_eq : headerSize S.file = 74 := field_at 1 rfl (by decide) (by decide)
theorem dataSize_eq : dataSize S.file = S.total := field_at 3 rfl (by decide) F.total
theorem width_eq : width S.file = S.w := field_at 5 rfl (by decide) F.w
theorem height_eq : height S.file = S.h := field_at 6 rfl (by decide) F.h
set_option linter.unusedSectionVars false in
theorem levels_eq : levels S.file = 1 := field_at 7 rfl (by decide) (by decide)
set_option linter.unusedSectionVars false in
theorem faces_eq : faces S.file = 1 := field_at 8 rfl (by decide) (by decide)
theorem format_eq : Crn.format S.file = S.format := field_at 9 rfl (by decide) F.format

theorem o4_lt : S.o1 < 2 ^ 24 ∧ S.c1.length < 2 ^ 24 ∧ S.o2 < 2 ^ 24 ∧ S.c2.length < 2 ^ 24 ∧
    S.o3 < 2 ^ 24 ∧ S.a1.length < 2 ^ 24 ∧ S.o4 < 2 ^ 24 ∧ S.a2.length < 2 ^ 24 := by
  have := F.o5
  unfold o5 o4 o3 o2 at *
  omega

theorem colorEndpoints_eq : colorEndpoints S.file = ⟨S.o1, S.c1.length, S.n1⟩ := by
  obtain ⟨b1, b2, b3, b4, b5, b6, b7, b8⟩ := o4_lt F
  have e1 : be S.file 33 3 = S.o1 := field_at 14 rfl (by decide) b1
  have e2 : be S.file (33 + 3) 3 = S.c1.length := field_at 15 rfl (by decide) b2
  have e3 : be S.file (33 + 6) 2 = S.n1 := field_at 16 rfl (by decide) F.n1
  unfold colorEndpoints palette
  rw [e1, e2, e3]

theorem colorSelectors_eq : colorSelectors S.file = ⟨S.o2, S.c2.length, S.n2⟩ := by
  obtain ⟨b1, b2, b3, b4, b5, b6, b7, b8⟩ := o4_lt F
  have e1 : be S.file 41 3 = S.o2 := field_at 17 rfl (by decide) b3
  have e2 : be S.file (41 + 3) 3 = S.c2.length := field_at 18 rfl (by decide) b4
  have e3 : be S.file (41 + 6) 2 = S.n2 := field_at 19 rfl (by decide) F.n2
  unfold colorSelectors palette
  rw [e1, e2, e3]

theorem alphaEndpoints_eq : alphaEndpoints S.file = ⟨S.o3, S.a1.length, S.n3⟩ := by
  obtain ⟨b1, b2, b3, b4, b5, b6, b7, b8⟩ := o4_lt F
  have e1 : be S.file 49 3 = S.o3 := field_at 20 rfl (by decide) b5
  have e2 : be S.file (49 + 3) 3 = S.a1.length := field_at 21 rfl (by decide) b6
  have e3 : be S.file (49 + 6) 2 = S.n3 := field_at 22 rfl (by decide) F.n3
  unfold alphaEndpoints palette
  rw [e1, e2, e3]

theorem alphaSelectors_eq : alphaSelectors S.file = ⟨S.o4, S.a2.length, S.n4⟩ := by
  obtain ⟨b1, b2, b3, b4, b5, b6, b7, b8⟩ := o4_lt F
  have e1 : be S.file 57 3 = S.o4 := field_at 23 rfl (by decide) b7
  have e2 : be S.file (57 + 3) 3 = S.a2.length := field_at 24 rfl (by decide) b8
  have e3 : be S.file (57 + 6) 2 = S.n4 := field_at 25 rfl (by decide) F.n4
  unfold alphaSelectors palette
  rw [e1, e2, e3]

theorem tablesSize_eq : tablesSize S.file = S.tb.length := field_at 26 rfl (by decide) F.tb
set_option linter.unusedSectionVars false in
theorem tablesOfs_eq : tablesOfs S.file = 74 := field_at 27 rfl (by decide) (by decide)
theorem levelOfs_eq : levelOfs S.file 0 = S.o5 := field_at 28 rfl (by decide) (by have := F.o5; omega)

theorem limits (hl : 0 < S.lv.length) (hbig : 16 * (blocksOf S.h * blocksOf S.w) < 2 ^ 30) :
    Limits S.file where
  small := by rw [S.file_length]; exact F.total
  sections := {
    tables := by
      rw [tablesOfs_eq F, tablesSize_eq F, S.file_length]
      unfold total o5 o4 o3 o2 o1; omega
    colours := by
      intro _
      rw [colorEndpoints_eq F, colorSelectors_eq F, S.file_length]
      simp only
      unfold total o5 o4 o3 o2 o1; omega
    alphas := by
      intro _
      rw [alphaEndpoints_eq F, alphaSelectors_eq F, S.file_length]
      simp only
      unfold total o5 o4 o3 o2 o1; omega }
  faces := by rw [faces_eq F]; omega
  shape := by rw [faces_eq F]; omega
  big := by
    unfold blocksX blocksY
    rw [faces_eq F, width_eq F, height_eq F, Nat.one_mul]
    exact hbig

end Sections

/-! ## The encoder -/

/-- A colour plane and an alpha plane. -/
structure Palettes where
  ce : List (List UInt8)
  cs : List (List UInt8)
  ae : List (List UInt8)
  as : List (List UInt8)

namespace Palettes
variable (P : Palettes)

structure Ok : Prop where
  ce_len : ∀ e ∈ P.ce, e.length = 4
  cs_len : ∀ e ∈ P.cs, e.length = 4
  ae_len : ∀ e ∈ P.ae, e.length = 2
  as_len : ∀ e ∈ P.as, e.length = 6
  ce_num : P.ce.length ≤ 8192
  cs_num : P.cs.length ≤ 8192
  ae_num : P.ae.length ≤ 8192
  as_num : P.as.length ≤ 8192
  ce_pos : 0 < P.ce.length
  ae_pos : 0 < P.ae.length

def colour : Plane := ⟨P.ce, P.cs, uniform 13, uniform 13⟩
def alpha : Plane := ⟨P.ae, P.as, uniform 13, uniform 13⟩

variable {P}
theorem Ok.colour (h : P.Ok) : PlaneOk P.colour := ⟨rfl, rfl, h.ce_num, h.cs_num⟩
theorem Ok.alpha (h : P.Ok) : PlaneOk P.alpha := ⟨rfl, rfl, h.ae_num, h.as_num⟩

end Palettes

/-- The bits of the tables. -/
def tableBits : List Bool :=
  codeTable 9 ++ ((codeTable 13 ++ codeTable 13) ++ (codeTable 13 ++ codeTable 13))

theorem Writes.codePair {num : Nat} (h : num ≠ 0) :
    Writes (Crn.codePair num) (Enc.uniform 13, Enc.uniform 13) (codeTable 13 ++ codeTable 13) := by
  unfold Crn.codePair
  rw [if_neg h]
  exact (Writes.prefixCode (by omega) (by omega)).bind (Writes.prefixCode (by omega) (by omega)).map

theorem Writes.codes {n m : Nat} (hn : n ≠ 0) (hm : m ≠ 0) :
    Writes (Crn.codes n m)
      ⟨Enc.uniform 9, Enc.uniform 13, Enc.uniform 13, Enc.uniform 13, Enc.uniform 13⟩ tableBits := by
  unfold Crn.codes tableBits
  refine (Writes.prefixCode (by omega) (by omega)).bind (Writes.require (by omega) ?_)
  exact (Writes.codePair hn).bind (Writes.codePair hm).map

theorem tableBits_length : tableBits.length = 33690 := by
  unfold tableBits
  simp only [List.length_append, codeTable_length (show 9 ≤ 13 by omega),
    codeTable_length (show 13 ≤ 13 by omega)]

theorem tables_length : (packed tableBits).length = 4212 := by
  rw [packed_length, tableBits_length]

attribute [irreducible] tableBits

/-- The sections of a file. -/
def encode (format w h : Nat) (P : Palettes) (level : List Bool) : Sections where
  format := format
  w := w
  h := h
  n1 := P.ce.length
  n2 := P.cs.length
  n3 := P.ae.length
  n4 := P.as.length
  tb := packed tableBits
  c1 := packed (colourEndpointBits P.ce)
  c2 := packed (selectorPaletteBits 6 colourOrder P.cs)
  a1 := packed (alphaEndpointBits P.ae)
  a2 := packed (selectorPaletteBits 8 alphaOrder P.as)
  lv := packed level

section
variable {format w h : Nat} {P : Palettes} (hP : P.Ok) {level : List Bool}
include hP

theorem encode_fit (hf : format < 256) (hw : w < 65536) (hh : h < 65536)
    (hl : level.length < 2 ^ 34) : (encode format w h P level).Fit := by
  obtain ⟨-, -, -, -, h5, h6, h7, h8, -, -⟩ := hP
  have t := tableBits_length
  have e1 := colourEndpointBits_le P.ce
  have e2 := selectorPaletteBits_le (show 6 ≤ 13 by omega) colourOrder P.cs
  have e3 := alphaEndpointBits_le P.ae
  have e4 := selectorPaletteBits_le (show 8 ≤ 13 by omega) alphaOrder P.as
  have o5 : (encode format w h P level).o5 < 2 ^ 24 := by
    unfold Sections.o5 Sections.o4 Sections.o3 Sections.o2 Sections.o1 encode
    simp only [packed_length]
    omega
  refine ⟨hf, hw, hh, ?_, ?_, ?_, ?_, ?_, o5, ?_⟩
  · show P.ce.length < _; omega
  · show P.cs.length < _; omega
  · show P.ae.length < _; omega
  · show P.as.length < _; omega
  · have : (encode format w h P level).tb.length = 4212 := tables_length
    omega
  · show (encode format w h P level).o5 + (packed level).length < _
    rw [packed_length]; omega

theorem encode_unpack (hf : format < 256) (hw : w < 65536) (hh : h < 65536)
    (hl : level.length < 2 ^ 34) {planes : List Plane} (hpl : planesOf format P.colour P.alpha = some planes)
    (hpos : 0 < level.length) {chunks : List Chunk}
    (hchunks : Writes (scan (chunk (uniform 9) planes)
      ((blocksOf h + 1) / 2 * ((blocksOf w + 1) / 2)) (firstChunk planes)) chunks level) :
    unpack (encode format w h P level).file =
      some (levelBlocks 1 (blocksOf w) (blocksOf h) chunks).flatten := by
  have F := encode_fit hP hf hw hh hl (level := level)
  have hce := hP.ce_pos
  have hae := hP.ae_pos
  have htab := tableBits_length
  unfold unpack
  rw [if_pos ⟨⟨Sections.sig_eq F, by rw [Sections.headerSize_eq F]; omega, by
      rw [Sections.dataSize_eq F, Sections.file_length]; omega⟩, by rw [Sections.levels_eq F]; omega, by
      unfold headerBytes
      rw [Sections.levels_eq F, Sections.file_length]
      unfold Sections.total Sections.o5 Sections.o4 Sections.o3 Sections.o2 Sections.o1; omega⟩]
  have s0 : fileCodes (encode format w h P level).file =
      some ⟨uniform 9, uniform 13, uniform 13, uniform 13, uniform 13⟩ := by
    unfold fileCodes
    rw [Sections.tablesOfs_eq F, Sections.tablesSize_eq F, Sections.colorEndpoints_eq F,
      Sections.alphaEndpoints_eq F]
    refine readSection_ok (Writes.codes (by show P.ce.length ≠ 0; omega) (by show P.ae.length ≠ 0; omega))
      (by omega) (pre := encFields (encode format w h P level).fields)
      (post := (encode format w h P level).c1 ++ ((encode format w h P level).c2 ++
        ((encode format w h P level).a1 ++ ((encode format w h P level).a2 ++
          (encode format w h P level).lv)))) ?_ ?_ rfl
    · unfold Sections.file Sections.body
      simp only [List.append_assoc]; rfl
    · exact (Sections.header_length _).symm
  have s1 : filePalette (encode format w h P level).file
      (colorEndpoints (encode format w h P level).file) colourEndpointPalette = some P.ce := by
    unfold filePalette
    rw [Sections.colorEndpoints_eq F]
    refine readSection_ok (Writes.colourEndpoints hP.ce_len)
      (by unfold colourEndpointBits; rw [List.length_append, codeTable_length (by omega)]; omega)
      (pre := encFields (encode format w h P level).fields ++ (encode format w h P level).tb)
      (post := (encode format w h P level).c2 ++ ((encode format w h P level).a1 ++
        ((encode format w h P level).a2 ++ (encode format w h P level).lv))) ?_ ?_ rfl
    · unfold Sections.file Sections.body
      simp only [List.append_assoc]; rfl
    · rw [List.length_append, Sections.header_length]; rfl
  have s2 : filePalette (encode format w h P level).file
      (colorSelectors (encode format w h P level).file) (selectorPalette colourOrder 4) = some P.cs := by
    unfold filePalette
    rw [Sections.colorSelectors_eq F]
    refine readSection_ok (Writes.colourSelectors hP.cs_len)
      (by unfold selectorPaletteBits; rw [List.length_append, codeTable_length (by omega)]; omega)
      (pre := encFields (encode format w h P level).fields ++ ((encode format w h P level).tb ++
        (encode format w h P level).c1))
      (post := (encode format w h P level).a1 ++
        ((encode format w h P level).a2 ++ (encode format w h P level).lv)) ?_ ?_ rfl
    · unfold Sections.file Sections.body
      simp only [List.append_assoc]; rfl
    · rw [List.length_append, List.length_append, Sections.header_length, ← Nat.add_assoc]; rfl
  have s3 : filePalette (encode format w h P level).file
      (alphaEndpoints (encode format w h P level).file) alphaEndpointPalette = some P.ae := by
    unfold filePalette
    rw [Sections.alphaEndpoints_eq F]
    refine readSection_ok (Writes.alphaEndpoints hP.ae_len)
      (by unfold alphaEndpointBits; rw [List.length_append, codeTable_length (by omega)]; omega)
      (pre := encFields (encode format w h P level).fields ++ ((encode format w h P level).tb ++
        ((encode format w h P level).c1 ++ (encode format w h P level).c2)))
      (post := (encode format w h P level).a2 ++ (encode format w h P level).lv) ?_ ?_ rfl
    · unfold Sections.file Sections.body
      simp only [List.append_assoc]; rfl
    · simp only [List.length_append, Sections.header_length, ← Nat.add_assoc]; rfl
  have s4 : filePalette (encode format w h P level).file
      (alphaSelectors (encode format w h P level).file) (selectorPalette alphaOrder 6) = some P.as := by
    unfold filePalette
    rw [Sections.alphaSelectors_eq F]
    refine readSection_ok (Writes.alphaSelectors hP.as_len)
      (by unfold selectorPaletteBits; rw [List.length_append, codeTable_length (by omega)]; omega)
      (pre := encFields (encode format w h P level).fields ++ ((encode format w h P level).tb ++
        ((encode format w h P level).c1 ++ ((encode format w h P level).c2 ++
          (encode format w h P level).a1))))
      (post := (encode format w h P level).lv) ?_ ?_ rfl
    · unfold Sections.file Sections.body
      simp only [List.append_assoc]; rfl
    · simp only [List.length_append, Sections.header_length, ← Nat.add_assoc]; rfl
  have c1 : colourPlane (encode format w h P level).file
      ⟨uniform 9, uniform 13, uniform 13, uniform 13, uniform 13⟩ = some P.colour := by
    unfold colourPlane
    rw [if_neg (by rw [Sections.colorEndpoints_eq F]; show P.ce.length ≠ 0; omega), s1, s2]
    rfl
  have c2 : alphaPlane (encode format w h P level).file
      ⟨uniform 9, uniform 13, uniform 13, uniform 13, uniform 13⟩ = some P.alpha := by
    unfold alphaPlane
    rw [if_neg (by rw [Sections.alphaEndpoints_eq F]; show P.ae.length ≠ 0; omega), s3, s4]
    rfl
  have hcount : chunkCount (encode format w h P level).file =
      (blocksOf h + 1) / 2 * ((blocksOf w + 1) / 2) := by
    unfold chunkCount blocksX blocksY
    rw [Sections.faces_eq F, Sections.width_eq F, Sections.height_eq F, Nat.one_mul]; rfl
  have s5 : readSection (encode format w h P level).file (levelOfs (encode format w h P level).file 0)
      (levelEnd (encode format w h P level).file - levelOfs (encode format w h P level).file 0)
      (scan (chunk (uniform 9) planes) (chunkCount (encode format w h P level).file) (firstChunk planes)) =
        some chunks := by
    rw [hcount]
    refine readSection_ok hchunks hpos
      (pre := encFields (encode format w h P level).fields ++ ((encode format w h P level).tb ++
        ((encode format w h P level).c1 ++ ((encode format w h P level).c2 ++
          ((encode format w h P level).a1 ++ (encode format w h P level).a2)))))
      (post := []) ?_ ?_ ?_
    · unfold Sections.file Sections.body
      simp only [List.append_assoc, List.append_nil]; rfl
    · rw [Sections.levelOfs_eq F]
      simp only [List.length_append, Sections.header_length, ← Nat.add_assoc]; rfl
    · unfold levelEnd
      rw [Sections.levels_eq F, if_neg (by omega), Sections.levelOfs_eq F, Sections.file_length]
      unfold Sections.total
      rw [Nat.add_sub_cancel_left]; rfl
  rw [s0]
  simp only [Option.bind_eq_bind, Option.bind_some]
  rw [c1, Option.bind_some, c2, Option.bind_some, Sections.format_eq F]
  show (planesOf format P.colour P.alpha).bind _ = _
  rw [hpl, Option.bind_some, s5, Option.bind_some]
  unfold blocksX blocksY
  rw [Sections.faces_eq F, Sections.width_eq F, Sections.height_eq F]
  rfl

end

/-! ## From blocks to files -/

/-- The indices of the given parts of the blocks in the palettes. -/
def levelOf (planes : List Plane) (cx : Nat) (partE partS : Nat → Nat → Nat → List UInt8)
    (hE : ∀ i p x y, planes[i]? = some p → partE i x y ∈ p.endpoints)
    (hS : ∀ i p x y, planes[i]? = some p → partS i x y ∈ p.selectors) : Level planes where
  e c q i := (planes.getD i ⟨[], [], [], []⟩).endpoints.idxOf (partE i (columnOf cx c q) (rowOf cx c q))
  s c q i := (planes.getD i ⟨[], [], [], []⟩).selectors.idxOf (partS i (columnOf cx c q) (rowOf cx c q))
  e_lt c q i p h := by
    rw [getD_of h]; exact List.idxOf_lt_length_of_mem (hE i p _ _ h)
  s_lt c q i p h := by
    rw [getD_of h]; exact List.idxOf_lt_length_of_mem (hS i p _ _ h)

theorem getD_idxOf {l : List (List UInt8)} {a : List UInt8} (h : a ∈ l) : l.getD (l.idxOf a) [] = a := by
  have hl := List.idxOf_lt_length_of_mem h
  rw [List.getD_eq_getElem?_getD, List.getElem?_eq_getElem hl]
  exact List.getElem_idxOf hl

theorem levelOf_block {planes : List Plane} {cx : Nat} {partE partS : Nat → Nat → Nat → List UInt8}
    {hE : ∀ i p x y, planes[i]? = some p → partE i x y ∈ p.endpoints}
    {hS : ∀ i p x y, planes[i]? = some p → partS i x y ∈ p.selectors} (c q : Nat) :
    (levelOf planes cx partE partS hE hS).block c q =
      (List.range planes.length).flatMap fun i =>
        partE i (columnOf cx c q) (rowOf cx c q) ++ partS i (columnOf cx c q) (rowOf cx c q) := by
  unfold Level.block
  apply flatMap_congr'
  intro i hi
  have hi' : i < planes.length := by simpa using hi
  have hp := List.getElem?_eq_getElem hi'
  show Plane.block _ ((planes.getD i _).endpoints.idxOf _) ((planes.getD i _).selectors.idxOf _) = _
  rw [getD_of hp]
  unfold Plane.block
  rw [getD_idxOf (hE i _ _ _ hp), getD_idxOf (hS i _ _ _ hp)]

theorem flatten_blocks (raw : Nat) (data : List UInt8) (n : Nat) :
    ((List.range n).map (blockBytes raw data)).flatten = data.take (n * raw) := by
  induction n with
  | zero => simp
  | succ n ih =>
    rw [List.range_succ, List.map_append, List.flatten_append, ih, Nat.succ_mul, List.take_add]
    simp [blockBytes]

theorem range_mul {α : Type} (g : Nat → α) (nx ny : Nat) :
    ((List.range ny).flatMap fun y => (List.range nx).map fun x => g (y * nx + x)) =
      (List.range (ny * nx)).map g := by
  induction ny with
  | zero => simp
  | succ ny ih =>
    rw [List.range_succ, List.flatMap_append, ih, Nat.succ_mul, List.range_add, List.map_append,
      List.flatMap_cons, List.flatMap_nil, List.append_nil, List.map_map]
    rfl

/-- A file for given blocks. `partE i k` and `partS i k` are the endpoints and the selectors of plane
`i` of block `k`. -/
theorem file_exists {format w h : Nat} {P : Palettes} (hP : P.Ok) (hf : format < 256)
    (hw : w < 65536) (hh : h < 65536) {planes : List Plane}
    (hpl : planesOf format P.colour P.alpha = some planes) (hn : planes.length ≤ 2)
    (hbig : 16 * (blocksOf h * blocksOf w) < 2 ^ 30)
    {raw : Nat} {data : List UInt8} (hdata : data.length = blocksOf h * blocksOf w * raw)
    (partE partS : Nat → Nat → List UInt8)
    (hE : ∀ i p k, planes[i]? = some p → k < blocksOf h * blocksOf w → partE i k ∈ p.endpoints)
    (hS : ∀ i p k, planes[i]? = some p → k < blocksOf h * blocksOf w → partS i k ∈ p.selectors)
    (hblk : ∀ k, k < blocksOf h * blocksOf w →
      ((List.range planes.length).flatMap fun i => partE i k ++ partS i k) = blockBytes raw data k) :
    ∃ file, unpack file = some data ∧ Limits file ∧ width file = w ∧ height file = h ∧
      Crn.format file = format := by
  have hx : 0 < blocksOf w := by unfold blocksOf; omega
  have hy : 0 < blocksOf h := by unfold blocksOf; omega
  have hpos : 0 < blocksOf h * blocksOf w := Nat.mul_pos hy hx
  generalize hnx : blocksOf w = nx at *
  generalize hny : blocksOf h = ny at *
  let num := fun x y => if x < nx ∧ y < ny then y * nx + x else 0
  have hnum : ∀ x y, num x y < ny * nx := by
    intro x y
    show (if x < nx ∧ y < ny then y * nx + x else 0) < _
    split
    · rename_i hxy
      have := Nat.mul_le_mul_right nx (show y + 1 ≤ ny by omega)
      rw [Nat.succ_mul] at this
      omega
    · exact hpos
  let L := levelOf planes ((nx + 1) / 2) (fun i x y => partE i (num x y)) (fun i x y => partS i (num x y))
    (fun i p x y hp => hE i p _ hp (hnum x y)) (fun i p x y hp => hS i p _ hp (hnum x y))
  have hok : ∀ p ∈ planes, PlaneOk p := by
    intro p hp
    have : p = P.colour ∨ p = P.alpha := by
      unfold planesOf at hpl
      split at hpl
      · cases hpl; simp at hp; exact .inl hp
      · split at hpl
        · cases hpl; simp at hp; exact hp.symm
        · split at hpl
          · cases hpl; simp at hp; exact .inr hp
          · split at hpl
            · cases hpl; simp at hp; exact .inr hp
            · exact absurd hpl (by simp)
    rcases this with rfl | rfl
    · exact hP.colour
    · exact hP.alpha
  let n := (ny + 1) / 2 * ((nx + 1) / 2)
  have hnle : n ≤ ny * nx := Nat.mul_le_mul (by omega) (by omega)
  have hn0 : 0 < n := Nat.mul_pos (by omega) (by omega)
  have hlen : (L.allBits n).length < 2 ^ 34 := by
    have h1 := L.allBits_le n
    have h2 := Nat.mul_le_mul hnle (show 9 + 104 * planes.length ≤ 217 by omega)
    omega
  have hlv := L.allBits_pos hn0
  have hU := encode_unpack hP hf hw hh hlen hpl hlv (chunks := (List.range n).map fun c => L.state (0 + c + 1))
    (by rw [hnx, hny]; exact L.all hok n)
  have F := encode_fit hP hf hw hh hlen
  refine ⟨_, ?_, Sections.limits F ?_ ?_, Sections.width_eq F, Sections.height_eq F, Sections.format_eq F⟩
  · rw [hU, hnx, hny, L.levelBlocks rfl (fun x y => blockBytes raw data (num x y))
      (fun c q => (levelOf_block c q).trans (hblk _ (hnum _ _)))]
    have e : ((List.range ny).flatMap fun y => (List.range nx).map fun x => blockBytes raw data (num x y)) =
        (List.range ny).flatMap fun y => (List.range nx).map fun x => blockBytes raw data (y * nx + x) := by
      apply flatMap_congr'
      intro y hy'
      apply List.map_congr_left
      intro x hx'
      show blockBytes raw data (if x < nx ∧ y < ny then y * nx + x else 0) = _
      rw [if_pos ⟨by simpa using hx', by simpa using hy'⟩]
    rw [e, range_mul, flatten_blocks, ← hdata, List.take_length]
  · show 0 < (packed _).length
    rw [packed_length]; omega
  · show 16 * (blocksOf h * blocksOf w) < _
    rw [hnx, hny]; exact hbig

end Verif.Proofs.Crn.Enc
