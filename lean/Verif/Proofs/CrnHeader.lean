import Verif.Model.CrnHeader
import Verif.Spec.CrnHeader
import Verif.Proofs.Image

/-! # The Crunch header: model against specification -/

namespace Verif.Proofs.Crn

open Verif Verif.Model Verif.Proofs

theorem castToUint_eq {l : List UInt8} (h1 : 1 ≤ l.length) (h4 : l.length ≤ 4) :
    castToUint l = Spec.beNat l := by
  rcases l with _ | ⟨a, _ | ⟨b, _ | ⟨c, _ | ⟨d, _ | ⟨e, l⟩⟩⟩⟩⟩
  · simp at h1
  · simp [castToUint, bytesOf, Spec.beNat, Spec.leNat]
  · simp [castToUint, bytesOf, Spec.beNat, Spec.leNat, fromBE, fromLE]
  · simp only [castToUint, bytesOf, List.map, Spec.beNat, Spec.leNat, fromBE, fromLE,
      List.reverse_cons, List.reverse_nil, List.nil_append, List.cons_append]
    have hb := b.toNat_lt
    have hc := c.toNat_lt
    rw [← Nat.shiftLeft_add_eq_or_of_lt (by omega), Nat.shiftLeft_eq]
    omega
  · simp [castToUint, bytesOf, Spec.beNat, Spec.leNat, fromBE, fromLE]
  · simp only [List.length_cons] at h4
    omega

theorem packedUint_ok {n ofs : Nat} {d : List UInt8} (h1 : 1 ≤ n) (h4 : n ≤ 4)
    (h : ofs + n ≤ d.length) : packedUint n d ofs = .ok (Spec.Crn.be d ofs n) := by
  unfold packedUint assignFromBuffer
  rw [sliceFrom_ok (by omega), Out.ok_bind, slice_ok (by omega) (by simp; omega), Out.map_ok,
    castToUint_eq (by simp; omega) (by simp; omega)]
  simp [Spec.Crn.be]

theorem packedUint_len {n ofs v : Nat} {d : List UInt8} (h : packedUint n d ofs = .ok v) :
    ofs + n ≤ d.length := by
  unfold packedUint assignFromBuffer sliceFrom slice at h
  by_cases h1 : ofs ≤ d.length
  · rw [if_pos h1, Out.ok_bind] at h
    by_cases h2 : 0 ≤ n ∧ n ≤ (d.drop ofs).length
    · simp at h2; omega
    · rw [if_neg h2] at h; simp at h
  · rw [if_neg h1] at h; simp at h

/-- The header as the model stores it. -/
def specPalette (p : Spec.Crn.Palette) : CrnPalette := ⟨p.ofs, p.size, p.num⟩

theorem crnPalette_ok {ofs : Nat} {d : List UInt8} (h : ofs + 8 ≤ d.length) :
    crnPalette d ofs = .ok (specPalette (Spec.Crn.palette d ofs)) := by
  unfold crnPalette
  rw [packedUint_ok (by omega) (by omega) (by omega), Out.ok_bind,
    packedUint_ok (by omega) (by omega) (by omega), Out.ok_bind,
    packedUint_ok (by omega) (by omega) (by omega), Out.ok_bind]
  rfl

/-- The header of a file. -/
def specHeader (d : List UInt8) : CrnHeader :=
  { sig := Spec.Crn.sig d, headerSize := Spec.Crn.headerSize d, headerCrc16 := Spec.Crn.be d 4 2,
    dataSize := Spec.Crn.dataSize d, dataCrc16 := Spec.Crn.be d 10 2,
    width := Spec.Crn.width d, height := Spec.Crn.height d, levels := Spec.Crn.levels d,
    faces := Spec.Crn.faces d, format := Spec.Crn.format d, flags := Spec.Crn.be d 19 2,
    reserved := Spec.Crn.be d 21 4, userdata0 := Spec.Crn.userdata0 d,
    userdata1 := Spec.Crn.userdata1 d,
    colorEndpoints := specPalette (Spec.Crn.colorEndpoints d),
    colorSelectors := specPalette (Spec.Crn.colorSelectors d),
    alphaEndpoints := specPalette (Spec.Crn.alphaEndpoints d),
    alphaSelectors := specPalette (Spec.Crn.alphaSelectors d),
    tablesSize := Spec.Crn.tablesSize d, tablesOfs := Spec.Crn.tablesOfs d,
    levelOfs := (List.range (Spec.Crn.levels d)).map (Spec.Crn.levelOfs d) }

theorem levelOfs_ok {d : List UInt8} {n : Nat} (h : 70 + 4 * n ≤ d.length) :
    forRange n (fun i (l : List Nat) => do
      let v ← packedUint 4 d (70 + i * 4)
      pure (l ++ [v])) [] = .ok ((List.range n).map (Spec.Crn.levelOfs d)) := by
  obtain ⟨s, e, p⟩ := forRange_inv (n := n) (s := ([] : List Nat))
    (f := fun i (l : List Nat) => do
      let v ← packedUint 4 d (70 + i * 4)
      pure (l ++ [v]))
    (fun i s => s = (List.range i).map (Spec.Crn.levelOfs d)) rfl (by
      intro i hi s hs
      subst hs
      rw [packedUint_ok (by omega) (by omega) (by omega), Out.ok_bind]
      refine ⟨_, rfl, ?_⟩
      rw [List.range_succ, List.map_append]
      simp [Spec.Crn.levelOfs, Nat.mul_comm])
  rw [e, p]

theorem readHeader_ok {d : List UInt8} (h : Spec.Crn.headerBytes d ≤ d.length) :
    readHeader d = .ok (specHeader d) := by
  unfold Spec.Crn.headerBytes at h
  unfold readHeader
  rw [packedUint_ok (by omega) (by omega) (by omega), Out.ok_bind,
    packedUint_ok (by omega) (by omega) (by omega), Out.ok_bind,
    packedUint_ok (by omega) (by omega) (by omega), Out.ok_bind,
    packedUint_ok (by omega) (by omega) (by omega), Out.ok_bind,
    packedUint_ok (by omega) (by omega) (by omega), Out.ok_bind,
    packedUint_ok (by omega) (by omega) (by omega), Out.ok_bind,
    packedUint_ok (by omega) (by omega) (by omega), Out.ok_bind,
    packedUint_ok (by omega) (by omega) (by omega), Out.ok_bind,
    packedUint_ok (by omega) (by omega) (by omega), Out.ok_bind,
    packedUint_ok (by omega) (by omega) (by omega), Out.ok_bind,
    packedUint_ok (by omega) (by omega) (by omega), Out.ok_bind,
    packedUint_ok (by omega) (by omega) (by omega), Out.ok_bind,
    packedUint_ok (by omega) (by omega) (by omega), Out.ok_bind,
    packedUint_ok (by omega) (by omega) (by omega), Out.ok_bind,
    crnPalette_ok (by omega), Out.ok_bind, crnPalette_ok (by omega), Out.ok_bind,
    crnPalette_ok (by omega), Out.ok_bind, crnPalette_ok (by omega), Out.ok_bind,
    packedUint_ok (by omega) (by omega) (by omega), Out.ok_bind,
    packedUint_ok (by omega) (by omega) (by omega), Out.ok_bind]
  rw [show Spec.Crn.be d 16 1 = Spec.Crn.levels d from rfl, levelOfs_ok h, Out.ok_bind]
  rfl

theorem levelOfs_len {d : List UInt8} {n : Nat} {l : List Nat}
    (h : forRange n (fun i (l : List Nat) => do
      let v ← packedUint 4 d (70 + i * 4)
      pure (l ++ [v])) [] = .ok l) (hn : 0 < n) : 70 + 4 * n ≤ d.length := by
  obtain ⟨m, rfl⟩ : ∃ m, n = m + 1 := ⟨n - 1, by omega⟩
  obtain ⟨s, _, e⟩ := Out.bind_eq_ok.mp h
  obtain ⟨v, e, _⟩ := Out.bind_eq_ok.mp e
  have := packedUint_len e
  omega

theorem readHeader_len {d : List UInt8} {h : CrnHeader} (e : readHeader d = .ok h) :
    Spec.Crn.headerBytes d ≤ d.length := by
  unfold readHeader at e
  obtain ⟨_, _, e⟩ := Out.bind_eq_ok.mp e
  obtain ⟨_, _, e⟩ := Out.bind_eq_ok.mp e
  obtain ⟨_, _, e⟩ := Out.bind_eq_ok.mp e
  obtain ⟨_, _, e⟩ := Out.bind_eq_ok.mp e
  obtain ⟨_, _, e⟩ := Out.bind_eq_ok.mp e
  obtain ⟨_, _, e⟩ := Out.bind_eq_ok.mp e
  obtain ⟨_, _, e⟩ := Out.bind_eq_ok.mp e
  obtain ⟨lv, hlv, e⟩ := Out.bind_eq_ok.mp e
  obtain ⟨_, _, e⟩ := Out.bind_eq_ok.mp e
  obtain ⟨_, _, e⟩ := Out.bind_eq_ok.mp e
  obtain ⟨_, _, e⟩ := Out.bind_eq_ok.mp e
  obtain ⟨_, _, e⟩ := Out.bind_eq_ok.mp e
  obtain ⟨_, _, e⟩ := Out.bind_eq_ok.mp e
  obtain ⟨_, _, e⟩ := Out.bind_eq_ok.mp e
  obtain ⟨_, _, e⟩ := Out.bind_eq_ok.mp e
  obtain ⟨_, _, e⟩ := Out.bind_eq_ok.mp e
  obtain ⟨_, _, e⟩ := Out.bind_eq_ok.mp e
  obtain ⟨_, _, e⟩ := Out.bind_eq_ok.mp e
  obtain ⟨_, _, e⟩ := Out.bind_eq_ok.mp e
  obtain ⟨_, ht, e⟩ := Out.bind_eq_ok.mp e
  obtain ⟨_, hl, _⟩ := Out.bind_eq_ok.mp e
  have h70 := packedUint_len ht
  rw [packedUint_ok (by omega) (by omega) (by omega)] at hlv
  have hlv' : Spec.Crn.levels d = lv := Out.ok.inj hlv
  unfold Spec.Crn.headerBytes
  rw [hlv']
  by_cases h0 : lv = 0
  · subst h0; omega
  · exact levelOfs_len hl (by omega)

theorem readHeader_panic {d : List UInt8} (h : d.length < Spec.Crn.headerBytes d) :
    readHeader d = .panic := by
  cases e : readHeader d with
  | panic => rfl
  | ok x => have := readHeader_len e; omega

theorem crndGetHeader_ok {d : List UInt8} {size : Nat} (hs : 74 ≤ size)
    (h : Spec.Crn.headerBytes d ≤ d.length) :
    crndGetHeader d size
      = .ok (if Spec.Crn.HeaderOk d size then some (specHeader d) else none) := by
  unfold crndGetHeader
  rw [if_neg (by omega), readHeader_ok h, Out.ok_bind]
  unfold Spec.Crn.HeaderOk
  simp only [show (specHeader d).sig = Spec.Crn.sig d from rfl,
    show (specHeader d).headerSize = Spec.Crn.headerSize d from rfl,
    show (specHeader d).dataSize = Spec.Crn.dataSize d from rfl,
    show 'H'.toNat * 256 + 'x'.toNat = 0x4878 from rfl]
  by_cases h1 : Spec.Crn.sig d = 0x4878
  · rw [if_neg (by simpa using h1)]
    by_cases h2 : Spec.Crn.headerSize d < 74 ∨ size < Spec.Crn.dataSize d
    · rw [if_pos h2, if_neg (by omega)]; rfl
    · rw [if_neg h2, if_pos (by omega)]; rfl
  · rw [if_pos h1, if_neg (by simp [h1])]; rfl

theorem crndGetHeader_panic {d : List UInt8} {size : Nat} (hs : 74 ≤ size)
    (h : d.length < Spec.Crn.headerBytes d) : crndGetHeader d size = .panic := by
  unfold crndGetHeader
  rw [if_neg (by omega), readHeader_panic h, Out.panic_bind]

theorem crnFormatOf_invalid {n : Nat} : crnFormatOf n = .invalid ↔ 15 < n := by
  constructor
  · intro h
    apply Classical.byContradiction
    intro hn
    have key : ∀ v : Fin 16, crnFormatOf v.val ≠ .invalid := by decide +kernel
    exact key ⟨n, by omega⟩ h
  · intro h
    unfold crnFormatOf
    split <;> first | rfl | omega

theorem crnFormatOf_code {n : Nat} (h : n ≤ 15) : (crnFormatOf n).code = n := by
  have key : ∀ v : Fin 16, (crnFormatOf v.val).code = v.val := by decide +kernel
  exact key ⟨n, by omega⟩

theorem bytesPerBlock_eq {n : Nat} :
    (if n = CrnFormat.dxt1.code ∨ n = CrnFormat.dxt5a.code ∨ n = CrnFormat.etc1.code
      ∨ n = CrnFormat.etc2.code ∨ n = CrnFormat.etc1s.code then 8 else 16)
      = Spec.Crn.bytesPerBlock n := by
  unfold Spec.Crn.bytesPerBlock
  by_cases h : n ∈ [0, 9, 10, 11, 13]
  · rw [if_pos h, if_pos (by simpa [CrnFormat.code] using h)]
  · rw [if_neg h, if_neg (by simpa [CrnFormat.code] using h)]

theorem leNat_lt (l : List UInt8) : Spec.leNat l < 256 ^ l.length := by
  induction l with
  | nil => simp [Spec.leNat]
  | cons a l ih =>
    have := a.toNat_lt
    simp only [Spec.leNat, List.length_cons, Nat.pow_succ]
    omega

theorem be_lt (d : List UInt8) (ofs n : Nat) : Spec.Crn.be d ofs n < 256 ^ n := by
  unfold Spec.Crn.be Spec.beNat
  refine Nat.lt_of_lt_of_le (leNat_lt _) (Nat.pow_le_pow_right (by omega) ?_)
  simp only [List.length_reverse, List.length_take]
  omega

theorem levels_lt (d : List UInt8) : Spec.Crn.levels d < 256 := be_lt d 16 1

/-- What the model does with a complete header. -/
theorem textureInfo_ok {self : CrnTextureInfo} {d : List UInt8} {size : Nat} (hs : 74 ≤ size)
    (hss : self.structSize = 36) (h : Spec.Crn.headerBytes d ≤ d.length)
    (hok : Spec.Crn.HeaderOk d size) (hf : Spec.Crn.format d ≤ 15) :
    crndGetTextureInfo self d size = .ok (true, {
      structSize := 36, width := Spec.Crn.width d, height := Spec.Crn.height d,
      levels := Spec.Crn.levels d, faces := Spec.Crn.faces d,
      bytesPerBlock := Spec.Crn.bytesPerBlock (Spec.Crn.format d),
      userdata0 := Spec.Crn.userdata0 d, userdata1 := Spec.Crn.userdata1 d,
      format := crnFormatOf (Spec.Crn.format d) }) := by
  unfold crndGetTextureInfo
  rw [if_neg (by omega), if_neg (by simpa using hss), crndGetHeader_ok hs h, if_pos hok,
    Out.ok_bind]
  simp only [show (specHeader d).format = Spec.Crn.format d from rfl]
  rw [if_neg (by rw [crnFormatOf_invalid]; omega), bytesPerBlock_eq, hss]
  rfl

theorem textureInfo_format {self : CrnTextureInfo} {d : List UInt8} {size : Nat} (hs : 74 ≤ size)
    (hss : self.structSize = 36) (h : Spec.Crn.headerBytes d ≤ d.length)
    (hok : Spec.Crn.HeaderOk d size) (hf : 15 < Spec.Crn.format d) :
    crndGetTextureInfo self d size = .ok (false, { self with
      width := Spec.Crn.width d, height := Spec.Crn.height d, levels := Spec.Crn.levels d,
      faces := Spec.Crn.faces d, format := .invalid }) := by
  unfold crndGetTextureInfo
  rw [if_neg (by omega), if_neg (by simpa using hss), crndGetHeader_ok hs h, if_pos hok,
    Out.ok_bind]
  simp only [show (specHeader d).format = Spec.Crn.format d from rfl]
  rw [if_pos (by rw [crnFormatOf_invalid]; omega), crnFormatOf_invalid.mpr hf]
  rfl

theorem textureInfo_bad {self : CrnTextureInfo} {d : List UInt8} {size : Nat} (hs : 74 ≤ size)
    (hss : self.structSize = 36) (h : Spec.Crn.headerBytes d ≤ d.length)
    (hok : ¬ Spec.Crn.HeaderOk d size) :
    crndGetTextureInfo self d size = .ok (false, self) := by
  unfold crndGetTextureInfo
  rw [if_neg (by omega), if_neg (by simpa using hss), crndGetHeader_ok hs h, if_neg hok,
    Out.ok_bind]
  rfl

theorem textureInfo_short {self : CrnTextureInfo} {d : List UInt8} {size : Nat}
    (h : size < 74 ∨ self.structSize ≠ 36) :
    crndGetTextureInfo self d size = .ok (false, self) := by
  unfold crndGetTextureInfo
  by_cases hs : size < 74
  · rw [if_pos hs]; rfl
  · rw [if_neg hs, if_pos (by omega)]; rfl

theorem textureInfo_panic {self : CrnTextureInfo} {d : List UInt8} {size : Nat} (hs : 74 ≤ size)
    (hss : self.structSize = 36) (h : d.length < Spec.Crn.headerBytes d) :
    crndGetTextureInfo self d size = .panic := by
  unfold crndGetTextureInfo
  rw [if_neg (by omega), if_neg (by simpa using hss), crndGetHeader_panic hs h]
  rfl

end Verif.Proofs.Crn
