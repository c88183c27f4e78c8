import Verif.Spec.CrnFile
import Verif.Model.Crunch
import Verif.Proofs.Bits
import Verif.Proofs.CrnHeader
import Verif.Proofs.Crn.Receive

/-!
# The palettes: the decoder against the specification
-/

namespace Verif.Proofs.Crn

open Verif Verif.Model Verif.Model.Crn Verif.Spec.Crn

variable [Build]

/-! ## Repeated reading -/

omit [Build] in
theorem scan_succ {α : Type} {r : α → Reader α} {n : Nat} {a : α} {bits rest : List Bool}
    {l : List α} (h : scan r (n + 1) a bits = some (l, rest)) :
    ∃ l' b mid, scan r n a bits = some (l', mid) ∧ r (l'.getLastD a) mid = some (b, rest) ∧
      l = l' ++ [b] := by
  induction n generalizing a bits l with
  | zero =>
    unfold scan at h
    obtain ⟨b, mid, h1, h⟩ := reader_bind.mp h
    obtain ⟨l2, m2, h2, h⟩ := reader_bind.mp h
    obtain ⟨rfl, rfl⟩ := reader_pure.mp h
    obtain ⟨rfl, rfl⟩ := reader_pure.mp h2
    exact ⟨[], b, bits, rfl, h1, rfl⟩
  | succ n ih =>
    unfold scan at h
    obtain ⟨b, mid, h1, h⟩ := reader_bind.mp h
    obtain ⟨l2, m2, h2, h⟩ := reader_bind.mp h
    obtain ⟨rfl, rfl⟩ := reader_pure.mp h
    obtain ⟨l', b', mid', h3, h4, rfl⟩ := ih h2
    refine ⟨b :: l', b', mid', ?_, ?_, rfl⟩
    · unfold scan
      exact reader_bind.mpr ⟨b, mid, h1, reader_bind.mpr ⟨l', mid', h3, reader_pure.mpr ⟨rfl, rfl⟩⟩⟩
    · rw [List.getLastD_cons]
      exact h4

omit [Build] in
theorem scan_length {α : Type} {r : α → Reader α} {n : Nat} {a : α} {bits rest : List Bool}
    {l : List α} (h : scan r n a bits = some (l, rest)) : l.length = n := by
  induction n generalizing l rest with
  | zero => obtain ⟨rfl, _⟩ := reader_pure.mp h; rfl
  | succ n ih =>
    obtain ⟨l', b, mid, h1, _, rfl⟩ := scan_succ h
    simp [ih h1]

omit [Build] in
/-- A loop that reads what `scan` reads. `Q` relates the values read so far, the bits that remain
and the state of the loop. -/
theorem scan_forRange {α σ : Type} {r : α → Reader α} {f : Nat → σ → Res σ} {n : Nat} {a : α}
    {bits rest : List Bool} {l : List α} {s : σ} (h : scan r n a bits = some (l, rest))
    (Q : List α → List Bool → σ → Prop) (h0 : Q [] bits s)
    (hstep : ∀ pre b bits rest s, pre.length < n → r (pre.getLastD a) bits = some (b, rest) →
      Q pre bits s → ∃ s', f pre.length s = .ok s' ∧ Q (pre ++ [b]) rest s') :
    ∃ s', Res.forRange n f s = .ok s' ∧ Q l rest s' := by
  induction n generalizing l rest with
  | zero => obtain ⟨rfl, rfl⟩ := reader_pure.mp h; exact ⟨s, rfl, h0⟩
  | succ n ih =>
    obtain ⟨l', b, mid, h1, h2, rfl⟩ := scan_succ h
    obtain ⟨s1, e1, q1⟩ := ih h1 (fun pre b bits rest s hp => hstep pre b bits rest s (by omega))
    have hl := scan_length h1
    obtain ⟨s2, e2, q2⟩ := hstep l' b mid rest s1 (by omega) h2 q1
    rw [hl] at e2
    exact ⟨s2, by simp [Res.forRange, e1, e2], q2⟩

omit [Build] in
theorem res_forRange_front {σ : Type} (n : Nat) (f : Nat → σ → Res σ) (s : σ) :
    Res.forRange (n + 1) f s = (f 0 s >>= Res.forRange n (fun i => f (i + 1))) := by
  induction n with
  | zero => cases h : f 0 s <;> simp [Res.forRange, h]
  | succ n ih =>
    rw [Res.forRange, ih]
    cases h : f 0 s <;> simp [Res.forRange]

/-! ## Sections -/

omit [Build] in
theorem section_start [Build] {file : List UInt8} {ofs size : Nat} {bits : List Bool}
    (h : sectionBits file ofs size = some bits) :
    sliceFrom file ofs = .ok (file.drop ofs) ∧
    ∃ c, Codec.start (file.drop ofs) size = .ok c ∧ At (file.drop ofs) (size - 1) c bits := by
  unfold sectionBits at h
  split at h
  · rename_i hs
    have hb : byteBits ((file.drop ofs).take size) = bits := by simpa using h
    subst hb
    refine ⟨sliceFrom_ok (by omega), ?_⟩
    obtain ⟨c, e, h1, h2, h3, _⟩ := start_ok (buf := file.drop ofs) (size := size) hs.1
      (by rw [List.length_drop]; omega)
    exact ⟨c, e, h1, h2, h3⟩
  · exact absurd h (by simp)

omit [Build] in
theorem readSection_some {α : Type} {file : List UInt8} {ofs size : Nat} {r : Reader α} {a : α}
    (h : readSection file ofs size r = some a) :
    ∃ bits rest, sectionBits file ofs size = some bits ∧ r bits = some (a, rest) ∧ 0 < size ∧
      ofs + size ≤ file.length := by
  unfold readSection at h
  simp only [Option.bind_eq_bind, Option.bind_eq_some_iff] at h
  obtain ⟨bits, h1, ⟨a', rest⟩, h2, h3⟩ := h
  obtain rfl : a' = a := by simpa using h3
  have hs : 0 < size ∧ ofs + size ≤ file.length := by
    unfold sectionBits at h1
    split at h1
    · assumption
    · exact absurd h1 (by simp)
  exact ⟨bits, rest, h1, h2, hs.1, hs.2⟩

omit [Build] in
theorem section_inside {file : List UInt8} {ofs size : Nat} (h0 : 0 < size)
    (h : ofs + size < file.length) : size - 1 + 1 < (file.drop ofs).length := by
  rw [List.length_drop]; omega

/-! ## Bytes -/

omit [Build] in
theorem leBytes_append {m n x y : Nat} (hx : x < 256 ^ m) :
    leBytes m x ++ leBytes n y = leBytes (m + n) (x + 256 ^ m * y) := by
  unfold leBytes
  rw [List.range_add, List.map_append, List.map_map]
  congr 1
  · apply List.map_congr_left
    intro i hi
    have hi := List.mem_range.mp hi
    apply UInt8.toNat.inj
    simp only [UInt8.toNat_ofNat']
    have e : (256 : Nat) ^ m = 256 ^ i * (256 * 256 ^ (m - i - 1)) := by
      rw [← Nat.pow_succ', ← Nat.pow_add]
      congr 1
      omega
    rw [e, Nat.mul_assoc, Nat.add_mul_div_left _ _ (Nat.pow_pos (by omega)), Nat.mul_assoc,
      show (2 : Nat) ^ 8 = 256 from rfl, Nat.add_mul_mod_self_left]
  · apply List.map_congr_left
    intro i _
    simp only [Function.comp]
    rw [Nat.pow_add, ← Nat.div_div_eq_div_mul, Nat.add_mul_div_left _ _ (Nat.pow_pos (by omega)),
      Nat.div_eq_of_lt hx, Nat.zero_add]

omit [Build] in
theorem or_shl {a b k : Nat} (h : a < 2 ^ k) : a ||| (b <<< k) = a + b * 2 ^ k := by
  rw [Nat.shiftLeft_eq, or_mul _ h]

/-! ## Endpoints -/

theorem deltaComponent_ok {buf : List UInt8} {last : Nat} {code : List Nat} {dm : DataModel}
    (hm : TablesOk code dm) {m mask j prev v : Nat} {bits rest : List Bool} {c : Codec}
    (h : change code m prev bits = some (v, rest)) (hj : m = 2 ^ j) (hmask : mask = 2 ^ j - 1)
    (hp : prev < 2 ^ 31) (hc : At buf last c bits) :
    ∃ c', deltaComponent c dm prev mask = .ok (v, c') ∧ At buf last c' rest ∧ v < m := by
  unfold change at h
  obtain ⟨d, b1, h1, h⟩ := reader_bind.mp h
  obtain ⟨rfl, rfl⟩ := reader_pure.mp h
  obtain ⟨c1, e1, hc1, _, hd⟩ := at_symbol hm h1 hc
  refine ⟨c1, ?_, hc1, ?_⟩
  · unfold deltaComponent
    simp only [e1, Res.ok_bind]
    rw [addU_ok (by omega), Res.lift_ok, Res.ok_bind, hmask, and_mask, hj]
    rfl
  · subst hj
    exact Nat.mod_lt _ (Nat.two_pow_pos _)

/-- The components of two colours. -/
def comps (p : Colour × Colour) : Components := ⟨p.1.r, p.1.g, p.1.b, p.2.r, p.2.g, p.2.b⟩

/-- The components are in range. -/
def ColourOk (p : Colour) : Prop := p.r < 32 ∧ p.g < 64 ∧ p.b < 32

theorem packEndpoints_ok {p : Colour × Colour} (h1 : ColourOk p.1) (h2 : ColourOk p.2) :
    packEndpoints (comps p) = .ok ((p.1.b + 32 * p.1.g + 2048 * p.1.r)
      + 65536 * (p.2.b + 32 * p.2.g + 2048 * p.2.r)) := by
  obtain ⟨⟨a, b, c⟩, ⟨d, e, f⟩⟩ := p
  obtain ⟨ha, hb, hc⟩ := h1
  obtain ⟨hd, he, hf⟩ := h2
  simp only at ha hb hc hd he hf
  unfold packEndpoints comps
  simp only
  rw [shlU_ok (by omega), Out.ok_bind, shlU_ok (by omega), Out.ok_bind, shlU_ok (by omega),
    Out.ok_bind, shlU_ok (by omega), Out.ok_bind, shlU_ok (by omega), Out.ok_bind]
  refine congrArg Out.ok ?_
  rw [Nat.mod_eq_of_lt (by rw [Nat.shiftLeft_eq]; omega),
    Nat.mod_eq_of_lt (by rw [Nat.shiftLeft_eq]; omega),
    Nat.mod_eq_of_lt (by rw [Nat.shiftLeft_eq]; omega),
    Nat.mod_eq_of_lt (by rw [Nat.shiftLeft_eq]; omega),
    Nat.mod_eq_of_lt (by rw [Nat.shiftLeft_eq]; omega)]
  rw [or_shl (a := c) (by omega), or_shl (a := c + b * 2 ^ 5) (by omega),
    or_shl (a := c + b * 2 ^ 5 + a * 2 ^ 11) (by omega),
    or_shl (a := c + b * 2 ^ 5 + a * 2 ^ 11 + f * 2 ^ 16) (by omega),
    or_shl (a := c + b * 2 ^ 5 + a * 2 ^ 11 + f * 2 ^ 16 + e * 2 ^ 21) (by omega)]
  omega

theorem colorEndpoints_ok {file : List UInt8} {pal : List (List UInt8)}
    (h : filePalette file (colorEndpoints file) colourEndpointPalette = some pal)
    (hin : (colorEndpoints file).ofs + (colorEndpoints file).size < file.length) :
    ∃ E, decodeColorEndpoints file (specHeader file) = .ok E ∧ pal = E.map (leBytes 4) ∧
      E.length = (colorEndpoints file).num ∧ ∀ v ∈ E, v < 2 ^ 32 := by
  obtain ⟨bits, rest, hb, h, h0, _⟩ := readSection_some h
  have hl := section_inside h0 hin
  obtain ⟨es, c, ec, hc⟩ := section_start hb
  unfold colourEndpointPalette at h
  obtain ⟨rb, b1, h1, h⟩ := reader_bind.mp h
  obtain ⟨g, b2, h2, h⟩ := reader_bind.mp h
  obtain ⟨l, b3, h3, h⟩ := reader_bind.mp h
  obtain ⟨rfl, rfl⟩ := reader_pure.mp h
  obtain ⟨dm0, c1, e1, hm0, hc1⟩ := receiveModel_ok hl h1 hc
  obtain ⟨dm1, c2, e2, hm1, hc2⟩ := receiveModel_ok hl h2 hc1
  have hloop := scan_forRange h3 (σ := Components × Codec × List Nat)
    (s := ({}, c2, []))
    (f := fun _ (st : Components × Codec × List Nat) => do
      let (s, k, l) := st
      let (s, k) ← colorEndpointStep dm0 dm1 s k
      let v ← packEndpoints s
      pure (s, k, l ++ [v]))
    (fun pre bits st => ∃ c E, st = (comps (pre.getLastD ({}, {})), c, E) ∧
      At (file.drop (colorEndpoints file).ofs) ((colorEndpoints file).size - 1) c bits ∧
      E.length = pre.length ∧ E.map (leBytes 4) = pre.map (fun p => p.1.bytes ++ p.2.bytes) ∧
      ColourOk (pre.getLastD ({}, {})).1 ∧ ColourOk (pre.getLastD ({}, {})).2 ∧
      ∀ v ∈ E, v < 2 ^ 32)
    ⟨c2, [], rfl, hc2, rfl, rfl, ⟨by decide, by decide, by decide⟩, ⟨by decide, by decide, by decide⟩,
      by simp⟩ (by
      rintro pre b bits rest st hp hr ⟨k, E, rfl, hk, hlen, hmap, ok1, ok2, hlt⟩
      generalize pre.getLastD ({}, {}) = p at hr ok1 ok2
      obtain ⟨⟨pa, pb, pc⟩, ⟨pd, pe, pf⟩⟩ := p
      obtain ⟨o1, o2, o3⟩ := ok1
      obtain ⟨o4, o5, o6⟩ := ok2
      simp only at o1 o2 o3 o4 o5 o6
      obtain ⟨q0, m0, r0, hr⟩ := reader_bind.mp hr
      obtain ⟨q1, m1, r1, hr⟩ := reader_bind.mp hr
      obtain ⟨rfl, rfl⟩ := reader_pure.mp hr
      unfold colour at r0 r1
      obtain ⟨va, n1, s1, r0⟩ := reader_bind.mp r0
      obtain ⟨vb, n2, s2, r0⟩ := reader_bind.mp r0
      obtain ⟨vc, n3, s3, r0⟩ := reader_bind.mp r0
      obtain ⟨rfl, rfl⟩ := reader_pure.mp r0
      obtain ⟨vd, n4, s4, r1⟩ := reader_bind.mp r1
      obtain ⟨ve, n5, s5, r1⟩ := reader_bind.mp r1
      obtain ⟨vf, n6, s6, r1⟩ := reader_bind.mp r1
      obtain ⟨rfl, rfl⟩ := reader_pure.mp r1
      obtain ⟨k1, t1, hk1, w1⟩ := deltaComponent_ok hm0 (mask := 31) (j := 5)
        (prev := pa) s1 rfl rfl (by omega) hk
      obtain ⟨k2, t2, hk2, w2⟩ := deltaComponent_ok hm1 (mask := 63) (j := 6)
        (prev := pb) s2 rfl rfl (by omega) hk1
      obtain ⟨k3, t3, hk3, w3⟩ := deltaComponent_ok hm0 (mask := 31) (j := 5)
        (prev := pc) s3 rfl rfl (by omega) hk2
      obtain ⟨k4, t4, hk4, w4⟩ := deltaComponent_ok hm0 (mask := 31) (j := 5)
        (prev := pd) s4 rfl rfl (by omega) hk3
      obtain ⟨k5, t5, hk5, w5⟩ := deltaComponent_ok hm1 (mask := 63) (j := 6)
        (prev := pe) s5 rfl rfl (by omega) hk4
      obtain ⟨k6, t6, hk6, w6⟩ := deltaComponent_ok hm0 (mask := 31) (j := 5)
        (prev := pf) s6 rfl rfl (by omega) hk5
      have hpk := packEndpoints_ok (p := (⟨va, vb, vc⟩, ⟨vd, ve, vf⟩)) ⟨w1, w2, w3⟩ ⟨w4, w5, w6⟩
      simp only [comps] at hpk
      refine ⟨_, ?_, k6, E ++ [(vc + 32 * vb + 2048 * va) + 65536 * (vf + 32 * ve + 2048 * vd)],
        rfl, hk6, by simp [hlen], ?_, by simpa using ⟨w1, w2, w3⟩, by simpa using ⟨w4, w5, w6⟩, ?_⟩
      · simp only [colorEndpointStep, comps, t1, t2, t3, t4, t5, t6, Res.ok_bind, Res.pure_eq, hpk,
          Res.lift_ok]
        simp
      · rw [List.map_append, List.map_append, hmap]
        simp only [List.map_cons, List.map_nil, Colour.bytes]
        rw [leBytes_append (by omega)]
      · intro v hv
        rcases List.mem_append.mp hv with hv | hv
        · exact hlt v hv
        · rw [List.mem_singleton.mp hv]; omega)
  obtain ⟨st, est, k, E, rfl, _, hlen, hmap, _, _, hlt⟩ := hloop
  refine ⟨E, ?_, hmap.symm, ?_, hlt⟩
  · unfold decodeColorEndpoints
    simp only [specHeader, specPalette]
    rw [es, Res.lift_ok, Res.ok_bind, ec, Res.ok_bind, e1, Res.ok_bind]
    simp only [e2, Res.ok_bind]
    rw [est]
    rfl
  · rw [hlen, scan_length h3]

theorem alphaEndpoints_ok {file : List UInt8} {pal : List (List UInt8)}
    (h : filePalette file (alphaEndpoints file) alphaEndpointPalette = some pal)
    (hin : (alphaEndpoints file).ofs + (alphaEndpoints file).size < file.length) :
    ∃ E, decodeAlphaEndpoints file (specHeader file) = .ok E ∧ pal = E.map (leBytes 2) ∧
      E.length = (alphaEndpoints file).num ∧ ∀ v ∈ E, v < 2 ^ 16 := by
  obtain ⟨bits, rest, hb, h, h0, _⟩ := readSection_some h
  have hl := section_inside h0 hin
  obtain ⟨es, c, ec, hc⟩ := section_start hb
  unfold alphaEndpointPalette at h
  obtain ⟨code, b1, h1, h⟩ := reader_bind.mp h
  obtain ⟨l, b3, h3, h⟩ := reader_bind.mp h
  obtain ⟨rfl, rfl⟩ := reader_pure.mp h
  obtain ⟨dm, c1, e1, hm, hc1⟩ := receiveModel_ok hl h1 hc
  have hloop := scan_forRange h3 (σ := Nat × Nat × Codec × List Nat)
    (s := (0, 0, c1, []))
    (f := fun _ (st : Nat × Nat × Codec × List Nat) => do
      let (a, b, k, l) := st
      let (sa, k) ← k.decode dm
      let (sb, k) ← k.decode dm
      let a ← addU 32 sa a
      let b ← addU 32 sb b
      let a := a &&& 0xff
      let b := b &&& 0xff
      let hi ← shlU 32 b 8
      pure (a, b, k, l ++ [asU 16 (a ||| hi)]))
    (fun pre bits st => ∃ c E, st = ((pre.getLastD (0, 0)).1, (pre.getLastD (0, 0)).2, c, E) ∧
      At (file.drop (alphaEndpoints file).ofs) ((alphaEndpoints file).size - 1) c bits ∧
      E.length = pre.length ∧ E.map (leBytes 2) = pre.map (fun p => leBytes 1 p.1 ++ leBytes 1 p.2) ∧
      (pre.getLastD (0, 0)).1 < 256 ∧ (pre.getLastD (0, 0)).2 < 256 ∧
      ∀ v ∈ E, v < 2 ^ 16)
    ⟨c1, [], rfl, hc1, rfl, rfl, by decide, by decide, by simp⟩ (by
      rintro pre b bits rest st hp hr ⟨k, E, rfl, hk, hlen, hmap, ok1, ok2, hlt⟩
      generalize pre.getLastD (0, 0) = p at hr ok1 ok2
      obtain ⟨pa, pb⟩ := p
      simp only at ok1 ok2
      unfold change at hr
      obtain ⟨va, m0, r0, hr⟩ := reader_bind.mp hr
      obtain ⟨vb, m1, r1, hr⟩ := reader_bind.mp hr
      obtain ⟨rfl, rfl⟩ := reader_pure.mp hr
      obtain ⟨da, n1, s1, r0⟩ := reader_bind.mp r0
      obtain ⟨rfl, rfl⟩ := reader_pure.mp r0
      obtain ⟨db, n2, s2, r1⟩ := reader_bind.mp r1
      obtain ⟨rfl, rfl⟩ := reader_pure.mp r1
      obtain ⟨k1, t1, hk1, _, w1⟩ := at_symbol hm s1 hk
      obtain ⟨k2, t2, hk2, _, w2⟩ := at_symbol hm s2 hk1
      have ha := Nat.mod_lt (da + pa) (show 0 < 256 by omega)
      have hb := Nat.mod_lt (db + pb) (show 0 < 256 by omega)
      refine ⟨_, ?_, k2, E ++ [(da + pa) % 256 + 256 * ((db + pb) % 256)], rfl, hk2, by simp [hlen],
        ?_, by simp; omega, by simp; omega, ?_⟩
      · simp only [t1, t2, Res.ok_bind]
        rw [addU_ok (by omega), Res.lift_ok, Res.ok_bind, addU_ok (by omega), Res.lift_ok,
          Res.ok_bind]
        simp only [and_255]
        rw [shlU_ok (by omega), Res.lift_ok, Res.ok_bind,
          Nat.mod_eq_of_lt (b := 2 ^ 32) (by rw [Nat.shiftLeft_eq]; omega), or_shl (by omega)]
        have e : asU 16 ((da + pa) % 256 + (db + pb) % 256 * 2 ^ 8)
            = (da + pa) % 256 + 256 * ((db + pb) % 256) := by unfold asU; omega
        rw [e]
        simp [Nat.add_comm]
      · rw [List.map_append, List.map_append, hmap]
        simp only [List.map_cons, List.map_nil]
        rw [leBytes_append (by omega), Nat.add_comm pa, Nat.add_comm pb]
      · intro v hv
        rcases List.mem_append.mp hv with hv | hv
        · exact hlt v hv
        · rw [List.mem_singleton.mp hv]; omega)
  obtain ⟨st, est, k, E, rfl, _, hlen, hmap, _, _, hlt⟩ := hloop
  refine ⟨E, ?_, hmap.symm, ?_, hlt⟩
  · unfold decodeAlphaEndpoints
    simp only [specHeader, specPalette]
    rw [es, Res.lift_ok, Res.ok_bind, ec, Res.ok_bind, e1, Res.ok_bind]
    simp only
    rw [est]
    rfl
  · rw [hlen, scan_length h3]

end Verif.Proofs.Crn
