import Verif.Proofs.Crn.WriteEtcFile

/-! # ETC files of Unity's variant of Crunch for given blocks -/

namespace Verif.Proofs.Crn.Enc

open Verif Verif.Spec Verif.Spec.Crn Verif.Proofs.Crn

theorem readSection_map {α β : Type} {file : List UInt8} {ofs size : Nat} {r : Reader α} {a : α} (f : α → β)
    (h : readSection file ofs size r = some a) :
    readSection file ofs size (r >>= fun a => Pure.pure (f a)) = some (f a) := by
  unfold readSection at h ⊢
  cases hb : sectionBits file ofs size with
  | none => rw [hb] at h; cases h
  | some bits =>
    rw [hb] at h
    cases hr : r bits with
    | none =>
      simp only [Option.bind_eq_bind, Option.bind_some, hr] at h
      cases h
    | some p =>
      have h' : some p.1 = some a := by
        simp only [Option.bind_eq_bind, Option.bind_some, hr] at h
        exact h
      cases h'
      have : (r >>= fun a => Pure.pure (f a)) bits = some (f p.1, p.2) := by
        rw [reader_bind]
        exact ⟨p.1, p.2, hr, rfl⟩
      simp only [Option.bind_eq_bind, Option.bind_some, this]
      rfl

/-! ## One colour per block -/

def EtcPalettes.colour (P : EtcPalettes) : Plane :=
  ⟨P.ce.map fun c => Unity.etcEndpointBytes c c 0, P.cs.map fun v => Unity.etcSelectorBytes (Unity.transpose v),
    uniform 13, uniform 13⟩

def EtcPalettes.alpha (P : EtcPalettes) : Plane :=
  ⟨P.ae, P.as.map fun v => Unity.eacSelectorBytes (Unity.transpose v), uniform 13, uniform 13⟩

section
variable {format w h : Nat} {P : EtcPalettes} (hP : P.Ok) {level : List Bool}
include hP

theorem encodeEtc_whole (hf : format = 13 ∧ P.ae.length = 0 ∨ format = 14 ∧ P.ae.length ≠ 0)
    (F : (encodeEtc format w h P level).Fit) (hpos : 0 < level.length)
    {planes : List Plane} {order : List Nat}
    (hpl : Unity.planesOf format P.colour P.alpha = some (planes, order)) {blocks : List Unity.Block}
    (hblocks : Writes (Unity.grow (Unity.block (uniform 9) (planes.map Plane.indices)
      (Unity.even (blocksOf w))) (Unity.even (blocksOf h) * Unity.even (blocksOf w)) []) blocks level) :
    Unity.unpack (encodeEtc format w h P level).file =
      some ((Unity.levelBlocks {} 1 (blocksOf w) (blocksOf h) blocks).map
        (Unity.blockBytes planes order)).flatten := by
  have hce := hP.ce_pos
  have hfm : Crn.format (encodeEtc format w h P level).file = format := Sections.format_eq F
  obtain ⟨s0, s1, s2, s3, s4⟩ := encodeEtc_sections hP F
  have s5 := encodeEtc_level F hpos ({} : Unity.Block) (Unity.block (uniform 9) (planes.map Plane.indices)) hblocks
  have hcn : (colorEndpoints (encodeEtc format w h P level).file).num = P.ce.length := by
    rw [Sections.colorEndpoints_eq F]; rfl
  have han : (alphaEndpoints (encodeEtc format w h P level).file).num = P.ae.length := by
    rw [Sections.alphaEndpoints_eq F]; rfl
  have hhead := encodeEtc_header F
  generalize (encodeEtc format w h P level).file = file at *
  have c1 : ∀ al al', Unity.colourPlane file ⟨uniform 9, uniform 13, uniform 13, al, al'⟩ = some P.colour := by
    intro al al'
    unfold Unity.colourPlane Unity.colourPalettes filePalette
    rw [if_neg (by omega), if_pos (by rw [hfm]; omega)]
    simp only [Option.bind_eq_bind]
    rw [readSection_map (fun l => l.map fun c => Unity.etcEndpointBytes c c 0) s1, Option.bind_some,
      readSection_map (fun l => l.map fun v => Unity.etcSelectorBytes (Unity.transpose v)) s2, Option.bind_some]
    rfl
  unfold Unity.unpack
  rw [if_pos hhead, s0]
  simp only [Option.bind_eq_bind, Option.bind_some]
  rw [if_neg (by rw [hfm]; omega)]
  unfold Unity.wholeBlocks
  simp only [Option.bind_eq_bind, c1, Option.bind_some, hfm]
  rcases hf with ⟨rfl, ha⟩ | ⟨rfl, ha⟩
  · have c2 : ∀ c, Unity.alphaPlane file c = some ⟨[], [], [], []⟩ := by
      intro c
      unfold Unity.alphaPlane
      rw [if_pos (by omega)]
    have hpl' : Unity.planesOf 13 P.colour ⟨[], [], [], []⟩ = some (planes, order) := hpl
    simp only [c2, Option.bind_some, hpl', s5]
  · have c2 : Unity.alphaPlane file ⟨uniform 9, uniform 13, uniform 13, alphaCode P.ae.length, alphaCode P.ae.length⟩
        = some P.alpha := by
      unfold Unity.alphaPlane
      rw [if_neg (by omega), s3, if_pos hfm]
      unfold filePalette
      simp only [Option.bind_eq_bind, Option.bind_some]
      rw [readSection_map (fun l => l.map fun v => Unity.eacSelectorBytes (Unity.transpose v)) s4, Option.bind_some]
      unfold alphaCode
      rw [if_neg ha]
      rfl
    simp only [c2, Option.bind_some, hpl, s5]

/-! ## Two colours per block -/

/-- The indices of the colours and of the alpha values. -/
def etcIndices (P : EtcPalettes) : Unity.Indices := ⟨uniform 13, P.ce.length, uniform 13, P.cs.length⟩
def eacIndices (P : EtcPalettes) : Unity.Indices := ⟨uniform 13, P.ae.length, uniform 13, P.as.length⟩

theorem encodeEtc_half (hf : format = 10 ∨ format = 11) (ha : P.ae.length = 0)
    (F : (encodeEtc format w h P level).Fit) (hpos : 0 < level.length) {blocks : List Unity.EtcBlock}
    (hblocks : Writes (Unity.grow (Unity.etcBlock (uniform 9) (etcIndices P) []
      (Unity.even (blocksOf w))) (Unity.even (blocksOf h) * Unity.even (blocksOf w)) []) blocks level) :
    Unity.unpack (encodeEtc format w h P level).file =
      some ((Unity.levelBlocks {} 1 (blocksOf w) (blocksOf h) blocks).map
        (Unity.etcColourBytes P.ce P.cs)).flatten := by
  have hce := hP.ce_pos
  have hfm : Crn.format (encodeEtc format w h P level).file = format := Sections.format_eq F
  obtain ⟨s0, s1, s2, s3, s4⟩ := encodeEtc_sections hP F
  have s5 := encodeEtc_level F hpos ({} : Unity.EtcBlock) (Unity.etcBlock (uniform 9) (etcIndices P) []) hblocks
  have hcn : (colorEndpoints (encodeEtc format w h P level).file).num = P.ce.length := by
    rw [Sections.colorEndpoints_eq F]; rfl
  have han : (alphaEndpoints (encodeEtc format w h P level).file).num = P.ae.length := by
    rw [Sections.alphaEndpoints_eq F]; rfl
  have hhead := encodeEtc_header F
  generalize (encodeEtc format w h P level).file = file at *
  unfold Unity.unpack
  rw [if_pos hhead, s0]
  simp only [Option.bind_eq_bind, Option.bind_some]
  rw [if_pos (by rw [hfm]; omega)]
  unfold Unity.halfBlocks Unity.halfBlocks.require'
  unfold etcIndices at s5
  simp only [Option.bind_eq_bind]
  rw [if_pos (by omega), Option.bind_some, s1, Option.bind_some, s2, Option.bind_some, if_neg (by rw [hfm]; omega),
    if_pos (by omega), Option.bind_some]
  simp only [s5, Option.bind_some]

theorem encodeEtc_half_alpha (ha : P.ae.length ≠ 0)
    (F : (encodeEtc 12 w h P level).Fit) (hpos : 0 < level.length) {blocks : List Unity.EtcBlock}
    (hblocks : Writes (Unity.grow (Unity.etcBlock (uniform 9) (etcIndices P) [eacIndices P]
      (Unity.even (blocksOf w))) (Unity.even (blocksOf h) * Unity.even (blocksOf w)) []) blocks level) :
    Unity.unpack (encodeEtc 12 w h P level).file =
      some ((Unity.levelBlocks {} 1 (blocksOf w) (blocksOf h) blocks).map fun b =>
        Unity.eacBytes P.ae P.as b ++ Unity.etcColourBytes P.ce P.cs b).flatten := by
  have hce := hP.ce_pos
  have hfm : Crn.format (encodeEtc 12 w h P level).file = 12 := Sections.format_eq F
  obtain ⟨s0, s1, s2, s3, s4⟩ := encodeEtc_sections hP F
  have s5 := encodeEtc_level F hpos ({} : Unity.EtcBlock)
    (Unity.etcBlock (uniform 9) (etcIndices P) [eacIndices P]) hblocks
  have hcn : (colorEndpoints (encodeEtc 12 w h P level).file).num = P.ce.length := by
    rw [Sections.colorEndpoints_eq F]; rfl
  have han : (alphaEndpoints (encodeEtc 12 w h P level).file).num = P.ae.length := by
    rw [Sections.alphaEndpoints_eq F]; rfl
  have hhead := encodeEtc_header F
  generalize (encodeEtc 12 w h P level).file = file at *
  unfold Unity.unpack
  rw [if_pos hhead, s0]
  simp only [Option.bind_eq_bind, Option.bind_some]
  rw [if_pos (by rw [hfm]; omega)]
  unfold Unity.halfBlocks Unity.halfBlocks.require'
  unfold etcIndices eacIndices at s5
  have hac : alphaCode P.ae.length = uniform 13 := by unfold alphaCode; rw [if_neg ha]
  simp only [Option.bind_eq_bind]
  rw [if_pos (by omega), Option.bind_some, s1, Option.bind_some, s2, Option.bind_some, if_pos hfm,
    if_pos (by omega), Option.bind_some, s3, Option.bind_some, s4, Option.bind_some]
  simp only [hac, s5, Option.bind_some]

end

/-! ## From blocks to files -/

/-- The number in the texture of block `n` of the stream. -/
def numberOf (nx ny n : Nat) : Nat :=
  if n % Unity.even nx < nx ∧ n / Unity.even nx < ny then n / Unity.even nx * nx + n % Unity.even nx else 0

theorem numberOf_lt {nx ny : Nat} (hpos : 0 < ny * nx) (n : Nat) : numberOf nx ny n < ny * nx := by
  unfold numberOf
  split
  · rename_i hxy
    have := Nat.mul_le_mul_right nx (show n / Unity.even nx + 1 ≤ ny by omega)
    rw [Nat.succ_mul] at this
    omega
  · exact hpos

theorem numberOf_at {nx ny x y : Nat} (hx : x < nx) (hy : y < ny) :
    numberOf nx ny (y * Unity.even nx + x) = y * nx + x := by
  have hex : nx ≤ Unity.even nx := by unfold Unity.even; omega
  have hmod : (y * Unity.even nx + x) % Unity.even nx = x := by
    rw [Nat.add_comm, Nat.add_mul_mod_self_right, Nat.mod_eq_of_lt (by omega)]
  have hdiv : (y * Unity.even nx + x) / Unity.even nx = y := by
    rw [Nat.add_comm, Nat.add_mul_div_right _ _ (by omega), Nat.div_eq_of_lt (by omega), Nat.zero_add]
  unfold numberOf
  rw [hmod, hdiv, if_pos ⟨hx, hy⟩]

theorem stream_data {β : Type} (d : β) (B : Nat → β) (bytes : β → List UInt8) {nx ny raw : Nat} {data : List UInt8}
    (hdata : data.length = ny * nx * raw)
    (h : ∀ n, bytes (B n) = Spec.blockBytes raw data (numberOf nx ny n)) :
    ((Unity.levelBlocks d 1 nx ny ((List.range (Unity.even ny * Unity.even nx)).map B)).map bytes).flatten = data := by
  rw [levelBlocks_range, List.map_flatMap]
  have e : ((List.range ny).flatMap fun y => ((List.range nx).map fun x =>
        B (y * Unity.even nx + x)).map bytes) =
      (List.range ny).flatMap fun y => (List.range nx).map fun x => Spec.blockBytes raw data (y * nx + x) := by
    apply flatMap_congr'
    intro y hy'
    rw [List.map_map]
    apply List.map_congr_left
    intro x hx'
    have hx2 : x < nx := by simpa using hx'
    have hy2 : y < ny := by simpa using hy'
    exact (h _).trans (by rw [numberOf_at hx2 hy2])
  rw [e, range_mul, flatten_blocks, ← hdata, List.take_length]

theorem even_blocks {nx ny : Nat} (hx : 0 < nx) (hy : 0 < ny) :
    0 < Unity.even ny * Unity.even nx ∧ Unity.even ny * Unity.even nx ≤ 4 * (ny * nx) := by
  have hex2 : Unity.even nx ≤ 2 * nx := by unfold Unity.even; omega
  have hey2 : Unity.even ny ≤ 2 * ny := by unfold Unity.even; omega
  refine ⟨Nat.mul_pos (by unfold Unity.even; omega) (by unfold Unity.even; omega), ?_⟩
  have := Nat.mul_le_mul hey2 hex2
  rw [Nat.mul_mul_mul_comm] at this
  exact this

theorem even_blocks' {nx ny : Nat} (hx : nx ≤ 16384) (hy : ny ≤ 16384) :
    Unity.even ny * Unity.even nx ≤ ny * nx + 32769 := by
  have := Nat.mul_le_mul (show Unity.even ny ≤ ny + 1 by unfold Unity.even; omega)
    (show Unity.even nx ≤ nx + 1 by unfold Unity.even; omega)
  rw [Nat.succ_mul, Nat.mul_succ] at this
  omega

theorem blocksOf_le {n : Nat} (h : n < 65536) : blocksOf n ≤ 16384 := by unfold blocksOf; omega

theorem blocksOf_pos (n : Nat) : 0 < blocksOf n := by unfold blocksOf; omega

/-- A file with one colour per block. `partE i k` and `partS i k` are the endpoints and the selectors of
plane `i` of block `k`. -/
theorem etcFile_exists {format w h : Nat} {P : EtcPalettes} (hP : P.Ok)
    (hf : format = 13 ∧ P.ae.length = 0 ∨ format = 14 ∧ P.ae.length ≠ 0)
    (hw : w < 65536) (hh : h < 65536) {planes : List Plane} {order : List Nat}
    (hpl : Unity.planesOf format P.colour P.alpha = some (planes, order)) (hn : planes.length ≤ 2)
    (ho : ∀ i ∈ order, i < planes.length)
    (hbig : 16 * (blocksOf h * blocksOf w) < 2 ^ 30)
    {raw : Nat} {data : List UInt8} (hdata : data.length = blocksOf h * blocksOf w * raw)
    (partE partS : Nat → Nat → List UInt8)
    (hE : ∀ i p k, planes[i]? = some p → k < blocksOf h * blocksOf w → partE i k ∈ p.endpoints)
    (hS : ∀ i p k, planes[i]? = some p → k < blocksOf h * blocksOf w → partS i k ∈ p.selectors)
    (hblk : ∀ k, k < blocksOf h * blocksOf w →
      (order.flatMap fun i => partE i k ++ partS i k) = Spec.blockBytes raw data k) :
    ∃ file, Unity.unpack file = some data ∧ Limits file ∧ width file = w ∧ height file = h ∧
      Crn.format file = format := by
  have hx := blocksOf_pos w
  have hy := blocksOf_pos h
  have hpos : 0 < blocksOf h * blocksOf w := Nat.mul_pos hy hx
  have hnum := numberOf_lt hpos
  obtain ⟨hn0, hnle⟩ := even_blocks hx hy
  let L := streamOf planes (fun i n => partE i (numberOf (blocksOf w) (blocksOf h) n))
    (fun i n => partS i (numberOf (blocksOf w) (blocksOf h) n))
    (fun i p n hp => hE i p _ hp (hnum n)) (fun i p n hp => hS i p _ hp (hnum n))
  have hok : ∀ p ∈ planes, PlaneOk p := by
    intro p hp
    have : p = P.colour ∨ p = P.alpha := by
      unfold Unity.planesOf at hpl
      split at hpl
      · cases hpl; simp at hp; exact .inl hp
      · split at hpl
        · cases hpl; simp at hp; exact hp
        · split at hpl
          · cases hpl; simp at hp; exact .inr hp
          · split at hpl
            · cases hpl; simp at hp; exact .inr hp
            · exact absurd hpl (by simp)
    rcases this with rfl | rfl
    · refine ⟨rfl, rfl, ?_, ?_⟩
      · show (P.ce.map _).length ≤ _; rw [List.length_map]; exact hP.ce_num
      · show (P.cs.map _).length ≤ _; rw [List.length_map]; exact hP.cs_num
    · refine ⟨rfl, rfl, hP.ae_num, ?_⟩
      show (P.as.map _).length ≤ _; rw [List.length_map]; exact hP.as_num
  have hlen : (L.allBits (Unity.even (blocksOf w)) (Unity.even (blocksOf h) * Unity.even (blocksOf w))).length < 2 ^ 34 := by
    have h1 := L.allBits_le (Unity.even (blocksOf w)) (Unity.even (blocksOf h) * Unity.even (blocksOf w))
    have h2 := Nat.mul_le_mul hnle (show 9 + 26 * planes.length ≤ 61 by omega)
    omega
  have F := encodeEtc_fit hP (format := format) (by omega) hw hh hlen
  have hU := encodeEtc_whole hP hf F (L.allBits_pos hn0) hpl (L.all hok _ _)
  refine ⟨_, ?_, Sections.limits F ?_ hbig, Sections.width_eq F, Sections.height_eq F, Sections.format_eq F⟩
  · rw [hU, stream_data _ _ _ hdata fun n => (streamOf_block ho n).trans (hblk _ (hnum n))]
  · show 0 < (packed _).length
    have := L.allBits_pos (w := Unity.even (blocksOf w)) hn0
    rw [packed_length]; omega

theorem getD_idxOf' {α : Type} [BEq α] [LawfulBEq α] {l : List α} {a d : α} (h : a ∈ l) : l.getD (l.idxOf a) d = a := by
  have hl := List.idxOf_lt_length_of_mem h
  rw [List.getD_eq_getElem?_getD, List.getElem?_eq_getElem hl]
  exact List.getElem_idxOf hl

/-- What an ETC block with two colours has. -/
structure EtcParts where
  c0 : Unity.EtcColour
  c1 : Unity.EtcColour
  flip : Nat
  sel : List Nat
  alpha : List UInt8 := []
  asel : List Nat := []

def EtcParts.colourBytes (p : EtcParts) : List UInt8 :=
  Unity.etcEndpointBytes p.c0 p.c1 p.flip ++ Unity.etcSelectorBytes (if p.flip = 0 then p.sel else Unity.transpose p.sel)

def EtcParts.alphaBytes (p : EtcParts) : List UInt8 :=
  p.alpha ++ Unity.eacSelectorBytes (if p.flip = 0 then p.asel else Unity.transpose p.asel)

structure EtcParts.In (p : EtcParts) (P : EtcPalettes) : Prop where
  c0 : p.c0 ∈ P.ce
  c1 : p.c1 ∈ P.ce
  flip : p.flip < 2
  sel : p.sel ∈ P.cs

structure EtcParts.InAlpha (p : EtcParts) (P : EtcPalettes) : Prop where
  alpha : p.alpha ∈ P.ae
  asel : p.asel ∈ P.as

theorem etcIndices_ok {P : EtcPalettes} (hP : P.Ok) : IndicesOk (etcIndices P) := ⟨rfl, rfl, hP.ce_num, hP.cs_num⟩
theorem eacIndices_ok {P : EtcPalettes} (hP : P.Ok) : IndicesOk (eacIndices P) := ⟨rfl, rfl, hP.ae_num, hP.as_num⟩

/-- A file with two colours per block and no alpha. -/
theorem etcHalfFile_exists {format w h : Nat} {P : EtcPalettes} (hP : P.Ok) (hf : format = 10 ∨ format = 11)
    (ha : P.ae.length = 0) (hw : w < 65536) (hh : h < 65536)
    (hbig : 16 * (blocksOf h * blocksOf w) < 2 ^ 30)
    {data : List UInt8} (hdata : data.length = blocksOf h * blocksOf w * 8) (parts : Nat → EtcParts)
    (hin : ∀ k, k < blocksOf h * blocksOf w → (parts k).In P)
    (hblk : ∀ k, k < blocksOf h * blocksOf w → (parts k).colourBytes = Spec.blockBytes 8 data k) :
    ∃ file, Unity.unpack file = some data ∧ Limits file ∧ width file = w ∧ height file = h ∧
      Crn.format file = format := by
  have hx := blocksOf_pos w
  have hy := blocksOf_pos h
  have hpos : 0 < blocksOf h * blocksOf w := Nat.mul_pos hy hx
  have hnum := numberOf_lt hpos
  obtain ⟨hn0, -⟩ := even_blocks hx hy
  let q := fun n => parts (numberOf (blocksOf w) (blocksOf h) n)
  have hq : ∀ n, (q n).In P := fun n => hin _ (hnum n)
  let L : EtcStream (etcIndices P :: []) := {
    e := fun n _ => P.ce.idxOf (q n).c0
    s := fun n _ => P.cs.idxOf (q n).sel
    second := fun n => P.ce.idxOf (q n).c1
    flip := fun n => (q n).flip
    e_lt := fun n i p hp => by
      match i, hp with
      | 0, hp => cases hp; exact List.idxOf_lt_length_of_mem (hq n).c0
    s_lt := fun n i p hp => by
      match i, hp with
      | 0, hp => cases hp; exact List.idxOf_lt_length_of_mem (hq n).sel
    second_lt := fun n p hp => by cases hp; exact List.idxOf_lt_length_of_mem (hq n).c1
    flip_lt := fun n => (hq n).flip }
  have hok : ∀ p ∈ etcIndices P :: [], IndicesOk p := fun p hp => by
    obtain rfl := List.mem_singleton.mp hp
    exact etcIndices_ok hP
  have hex : 0 < Unity.even (blocksOf w) := by unfold Unity.even; omega
  have hlen : (L.allBits (Unity.even (blocksOf w)) (Unity.even (blocksOf h) * Unity.even (blocksOf w))).length < 2 ^ 34 := by
    have h1 := L.allBits_le (Unity.even (blocksOf w)) (Unity.even (blocksOf h) * Unity.even (blocksOf w))
    have h2 := Nat.mul_le_mul (even_blocks' (blocksOf_le hw) (blocksOf_le hh))
      (show 22 + 26 * (([] : List Unity.Indices).length + 1) ≤ 74 by decide)
    omega
  have F := encodeEtc_fit hP (format := format) (by omega) hw hh hlen
  have hU := encodeEtc_half hP hf ha F (L.allBits_pos hn0) (L.all hok hex _)
  have hb : ∀ n, Unity.etcColourBytes P.ce P.cs (L.block (Unity.even (blocksOf w)) n) =
      Spec.blockBytes 8 data (numberOf (blocksOf w) (blocksOf h) n) := by
    intro n
    rw [← hblk _ (hnum n)]
    show Unity.etcEndpointBytes (P.ce.getD (P.ce.idxOf (q n).c0) {}) (P.ce.getD (P.ce.idxOf (q n).c1) {}) (q n).flip ++
      Unity.etcSelectorBytes (if (q n).flip = 0 then P.cs.getD (P.cs.idxOf (q n).sel) []
        else Unity.transpose (P.cs.getD (P.cs.idxOf (q n).sel) [])) = _
    rw [getD_idxOf' (hq n).c0, getD_idxOf' (hq n).c1, getD_idxOf' (hq n).sel]
    rfl
  refine ⟨_, ?_, Sections.limits F ?_ hbig, Sections.width_eq F, Sections.height_eq F, Sections.format_eq F⟩
  · rw [hU, stream_data _ _ _ hdata hb]
  · show 0 < (packed _).length
    have := L.allBits_pos (w := Unity.even (blocksOf w)) hn0
    rw [packed_length]; omega

/-- A file with two colours per block and alpha. -/
theorem etcAlphaFile_exists {w h : Nat} {P : EtcPalettes} (hP : P.Ok)
    (ha : P.ae.length ≠ 0) (hw : w < 65536) (hh : h < 65536)
    (hbig : 16 * (blocksOf h * blocksOf w) < 2 ^ 30)
    {data : List UInt8} (hdata : data.length = blocksOf h * blocksOf w * 16) (parts : Nat → EtcParts)
    (hin : ∀ k, k < blocksOf h * blocksOf w → (parts k).In P ∧ (parts k).InAlpha P)
    (hblk : ∀ k, k < blocksOf h * blocksOf w →
      (parts k).alphaBytes ++ (parts k).colourBytes = Spec.blockBytes 16 data k) :
    ∃ file, Unity.unpack file = some data ∧ Limits file ∧ width file = w ∧ height file = h ∧
      Crn.format file = 12 := by
  have hx := blocksOf_pos w
  have hy := blocksOf_pos h
  have hpos : 0 < blocksOf h * blocksOf w := Nat.mul_pos hy hx
  have hnum := numberOf_lt hpos
  obtain ⟨hn0, -⟩ := even_blocks hx hy
  let q := fun n => parts (numberOf (blocksOf w) (blocksOf h) n)
  have hq : ∀ n, (q n).In P := fun n => (hin _ (hnum n)).1
  have hqa : ∀ n, (q n).InAlpha P := fun n => (hin _ (hnum n)).2
  let L : EtcStream (etcIndices P :: [eacIndices P]) := {
    e := fun n i => if i = 0 then P.ce.idxOf (q n).c0 else P.ae.idxOf (q n).alpha
    s := fun n i => if i = 0 then P.cs.idxOf (q n).sel else P.as.idxOf (q n).asel
    second := fun n => P.ce.idxOf (q n).c1
    flip := fun n => (q n).flip
    e_lt := fun n i p hp => by
      match i, hp with
      | 0, hp => cases hp; exact List.idxOf_lt_length_of_mem (hq n).c0
      | 1, hp => cases hp; exact List.idxOf_lt_length_of_mem (hqa n).alpha
    s_lt := fun n i p hp => by
      match i, hp with
      | 0, hp => cases hp; exact List.idxOf_lt_length_of_mem (hq n).sel
      | 1, hp => cases hp; exact List.idxOf_lt_length_of_mem (hqa n).asel
    second_lt := fun n p hp => by cases hp; exact List.idxOf_lt_length_of_mem (hq n).c1
    flip_lt := fun n => (hq n).flip }
  have hok : ∀ p ∈ etcIndices P :: [eacIndices P], IndicesOk p := fun p hp => by
    rcases List.mem_cons.mp hp with rfl | hp
    · exact etcIndices_ok hP
    · obtain rfl := List.mem_singleton.mp hp
      exact eacIndices_ok hP
  have hex : 0 < Unity.even (blocksOf w) := by unfold Unity.even; omega
  have hlen : (L.allBits (Unity.even (blocksOf w)) (Unity.even (blocksOf h) * Unity.even (blocksOf w))).length < 2 ^ 34 := by
    have h1 := L.allBits_le (Unity.even (blocksOf w)) (Unity.even (blocksOf h) * Unity.even (blocksOf w))
    have h2 := Nat.mul_le_mul (even_blocks' (blocksOf_le hw) (blocksOf_le hh))
      (show 22 + 26 * ([eacIndices P].length + 1) ≤ 74 by simp)
    omega
  have F := encodeEtc_fit hP (format := 12) (by omega) hw hh hlen
  have hU := encodeEtc_half_alpha hP ha F (L.allBits_pos hn0) (L.all hok hex _)
  have hb : ∀ n, Unity.eacBytes P.ae P.as (L.block (Unity.even (blocksOf w)) n) ++
      Unity.etcColourBytes P.ce P.cs (L.block (Unity.even (blocksOf w)) n) =
      Spec.blockBytes 16 data (numberOf (blocksOf w) (blocksOf h) n) := by
    intro n
    rw [← hblk _ (hnum n)]
    show (P.ae.getD (P.ae.idxOf (q n).alpha) [] ++
      Unity.eacSelectorBytes (if (q n).flip = 0 then P.as.getD (P.as.idxOf (q n).asel) []
        else Unity.transpose (P.as.getD (P.as.idxOf (q n).asel) []))) ++
      (Unity.etcEndpointBytes (P.ce.getD (P.ce.idxOf (q n).c0) {}) (P.ce.getD (P.ce.idxOf (q n).c1) {}) (q n).flip ++
      Unity.etcSelectorBytes (if (q n).flip = 0 then P.cs.getD (P.cs.idxOf (q n).sel) []
        else Unity.transpose (P.cs.getD (P.cs.idxOf (q n).sel) []))) = _
    rw [getD_idxOf' (hq n).c0, getD_idxOf' (hq n).c1, getD_idxOf' (hq n).sel, getD_idxOf' (hqa n).alpha,
      getD_idxOf' (hqa n).asel]
    rfl
  refine ⟨_, ?_, Sections.limits F ?_ hbig, Sections.width_eq F, Sections.height_eq F, Sections.format_eq F⟩
  · rw [hU, stream_data ({} : Unity.EtcBlock) _ (fun b => Unity.eacBytes P.ae P.as b ++
      Unity.etcColourBytes P.ce P.cs b) hdata hb]
  · show 0 < (packed _).length
    have := L.allBits_pos (w := Unity.even (blocksOf w)) hn0
    rw [packed_length]; omega

end Verif.Proofs.Crn.Enc
