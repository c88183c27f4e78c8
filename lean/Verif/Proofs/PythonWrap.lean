import Verif.Proofs.Python
import Verif.Proofs.PvrtcOversize

/-!
# Lemmas about the Python bindings with sizes that wrap
-/

namespace Verif.Proofs

open Verif Verif.Model

/-! ## Programs that leave the memory alone -/

/-- Run on this memory, the program does not change it. -/
def Quiet {α : Type} (m : Mem) (x : Run α) : Prop := (x m).1 = m

theorem Quiet.pure {α : Type} {m : Mem} {a : α} : Quiet m (Pure.pure a : Run α) := rfl

theorem Quiet.nothing {α : Type} {m : Mem} {o : Out α} : Quiet m (Run.lift o) := rfl

theorem Quiet.lift {α β : Type} {m : Mem} {o : Out α} {f : α → Run β}
    (h : ∀ a, o = .ok a → Quiet m (f a)) : Quiet m (Run.lift o >>= f) := by
  cases o with
  | panic => rfl
  | ok a => exact h a rfl

theorem Quiet.size {β : Type} {m : Mem} {f : Nat → Run β} (h : Quiet m (f m.image.length)) :
    Quiet m (Run.size >>= f) := h

theorem Quiet.of_eq {α : Type} {m : Mem} {x : Run α} {o : Out α} (h : x m = (m, o)) : Quiet m x := by
  unfold Quiet; rw [h]

section
variable [Build]

/-- With an image that is too small nothing is written. -/
theorem blockDecoderR_small {bw bh raw : Nat} {f : BlockFn} {data : List UInt8} {w h : Nat} {m : Mem}
    (hwh : w * h < 2 ^ 64) (hs : m.image.length < w * h) :
    Quiet m (blockDecoderR bw bh raw f data w h) := by
  unfold blockDecoderR
  refine Quiet.lift fun _ _ => Quiet.lift fun _ _ => Quiet.lift fun _ _ => Quiet.lift fun _ _ => ?_
  split
  · exact Quiet.pure
  · rw [mulU_ok hwh]
    refine Quiet.lift fun pixels e => Quiet.size ?_
    cases e
    rw [if_pos hs]
    exact Quiet.pure

theorem decodeAstcR_small {bw bh : Nat} {data : List UInt8} {w h : Nat} {m : Mem}
    (hwh : w * h < 2 ^ 64) (hs : m.image.length < w * h) :
    Quiet m (decodeAstcR data w h bw bh) := by
  unfold decodeAstcR
  refine Quiet.lift fun _ _ => Quiet.lift fun _ _ => Quiet.lift fun _ _ => Quiet.lift fun _ _ => ?_
  split
  · exact Quiet.pure
  · rw [mulU_ok hwh]
    refine Quiet.lift fun pixels e => Quiet.size ?_
    cases e
    rw [if_pos hs]
    exact Quiet.pure

theorem decodePvrtcR_small {is2 : Bool} {data : List UInt8} {w h : Nat} {m : Mem}
    (hwh : w * h < 2 ^ 64) (hs : m.image.length < w * h) :
    Quiet m (decodePvrtcR is2 data w h) := by
  unfold decodePvrtcR
  refine Quiet.lift fun _ _ => Quiet.lift fun _ _ => Quiet.lift fun _ _ => Quiet.lift fun _ _ => ?_
  split
  · exact Quiet.pure
  · rw [mulU_ok hwh]
    refine Quiet.lift fun pixels e => Quiet.size ?_
    cases e
    rw [if_pos hs]
    exact Quiet.pure

theorem decodeCrunchR_small {data : List UInt8} {w h : Nat} {m : Mem}
    (hwh : w * h < 2 ^ 64) (hs : m.image.length < w * h) : Quiet m (decodeCrunchR data w h) := by
  unfold decodeCrunchR
  cases Crn.crunchUnpackLevel data (asU 32 data.length) 0 with
  | panic => exact Quiet.nothing
  | fail msg => exact Quiet.pure
  | ok hd =>
    dsimp only
    split <;> first | exact blockDecoderR_small hwh hs | exact Quiet.pure

theorem decodeUnityCrunchR_small {data : List UInt8} {w h : Nat} {m : Mem}
    (hwh : w * h < 2 ^ 64) (hs : m.image.length < w * h) : Quiet m (decodeUnityCrunchR data w h) := by
  unfold decodeUnityCrunchR
  cases Crn.Unity.unityCrunchUnpackLevel data (asU 32 data.length) 0 with
  | panic => exact Quiet.nothing
  | fail msg => exact Quiet.pure
  | ok hd =>
    dsimp only
    split <;> first | exact blockDecoderR_small hwh hs | exact Quiet.pure

theorem pyFn_small (fn : PyFn) (data : List UInt8) {w h : Nat} {m : Mem} (hwh : w * h < 2 ^ 64)
    (hs : m.image.length < w * h) : Quiet m (fn.decoder data w h) :=
  match fn with
  | .atcRgb4 => blockDecoderR_small hwh hs
  | .atcRgba8 => blockDecoderR_small hwh hs
  | .bc1 => blockDecoderR_small hwh hs
  | .bc1a => blockDecoderR_small hwh hs
  | .bc2 => blockDecoderR_small hwh hs
  | .bc3 => blockDecoderR_small hwh hs
  | .bc4 => blockDecoderR_small hwh hs
  | .bc5 => blockDecoderR_small hwh hs
  | .bc6Signed => blockDecoderR_small hwh hs
  | .bc6Unsigned => blockDecoderR_small hwh hs
  | .bc7 => blockDecoderR_small hwh hs
  | .etc1 => blockDecoderR_small hwh hs
  | .etc2Rgb => blockDecoderR_small hwh hs
  | .etc2Rgba1 => blockDecoderR_small hwh hs
  | .etc2Rgba8 => blockDecoderR_small hwh hs
  | .eacr => blockDecoderR_small hwh hs
  | .eacrSigned => blockDecoderR_small hwh hs
  | .eacrg => blockDecoderR_small hwh hs
  | .eacrgSigned => blockDecoderR_small hwh hs
  | .astc4x4 => decodeAstcR_small hwh hs
  | .astc5x4 => decodeAstcR_small hwh hs
  | .astc5x5 => decodeAstcR_small hwh hs
  | .astc6x5 => decodeAstcR_small hwh hs
  | .astc6x6 => decodeAstcR_small hwh hs
  | .astc8x5 => decodeAstcR_small hwh hs
  | .astc8x6 => decodeAstcR_small hwh hs
  | .astc8x8 => decodeAstcR_small hwh hs
  | .astc10x5 => decodeAstcR_small hwh hs
  | .astc10x6 => decodeAstcR_small hwh hs
  | .astc10x8 => decodeAstcR_small hwh hs
  | .astc10x10 => decodeAstcR_small hwh hs
  | .astc12x10 => decodeAstcR_small hwh hs
  | .astc12x12 => decodeAstcR_small hwh hs
  | .pvrtc2bpp => decodePvrtcR_small hwh hs
  | .pvrtc4bpp => decodePvrtcR_small hwh hs
  | .crunch => decodeCrunchR_small hwh hs
  | .unityCrunch => decodeUnityCrunchR_small hwh hs

end

section
attribute [local instance] Build.release

/-- An oversized PVRTC image is refused, or the function panics before it writes anything. -/
theorem decodePvrtcR_oversize {is2 : Bool} {data : List UInt8} {w h : Nat} {m : Mem}
    (hw : w < 2 ^ 64) (hh : h < 2 ^ 64) (hd : data.length < 2 ^ 62) (ho : 2 ^ 64 ≤ w * h) :
    Quiet m (decodePvrtcR is2 data w h) := by
  have hbw := Pvrtc.bw_cases is2
  have hbig := Pvrtc.oversized_blocks (is2 := is2) (.inr ho)
  have hf : (if is2 = true then 8 else 4) = Spec.Pvrtc.bw is2 := rfl
  have hnx63 : Spec.ceilDiv w (Spec.Pvrtc.bw is2) < 2 ^ 63 := by
    unfold Spec.ceilDiv
    rcases hbw with e | e <;> rw [e] <;> omega
  have hny63 : Spec.ceilDiv h 4 < 2 ^ 63 := by unfold Spec.ceilDiv; omega
  unfold decodePvrtcR
  simp only [hf]
  rw [divCeil_ok (by omega), Run.lift_ok_bind, divCeil_ok (by omega), Run.lift_ok_bind, ← Spec.ceilDiv,
    ← Spec.ceilDiv]
  unfold Spec.numBlocks at *
  generalize Spec.ceilDiv w (Spec.Pvrtc.bw is2) = nbx at *
  generalize Spec.ceilDiv h 4 = nby at *
  unfold mulU
  simp only [fitU_release, Run.lift_ok_bind, Nat.mod_mul_mod]
  split
  · exact Quiet.pure
  refine Quiet.size ?_
  split
  · exact Quiet.pure
  have hpos : 0 < nbx * nby := by
    rcases Nat.eq_zero_or_pos (nbx * nby) with h0 | h0
    · rw [h0] at hbig; omega
    · exact h0
  have hnx : 0 < nbx := Nat.pos_of_mul_pos_right hpos
  have hny : 0 < nby := Nat.pos_of_mul_pos_left hpos
  obtain ⟨b1, e1, hb1⟩ := Pvrtc.pvNotPow2_eq hnx
  obtain ⟨b2, e2, hb2⟩ := Pvrtc.pvNotPow2_eq hny
  rw [e1, Run.lift_ok_bind]
  cases b1 with
  | true => exact Quiet.pure
  | false =>
    simp only [Bool.false_eq_true, if_false]
    rw [e2, Run.lift_ok_bind]
    cases b2 with
    | true => exact Quiet.pure
    | false =>
      simp only [Bool.false_eq_true, if_false]
      have hx := hb1.mp rfl
      have hy := hb2.mp rfl
      rcases Nat.lt_or_ge (nbx * nby) (2 ^ 64) with h1 | h1
      · rw [Nat.mod_eq_of_lt h1, Pvrtc.pvInfos_panic_any (by
          rcases hbw with e | e <;> rw [e] at hbig <;> omega) (by omega)]
        rfl
      · have hz : nbx * nby % 2 ^ 64 = 0 := by
          obtain ⟨p, hp⟩ := hx
          obtain ⟨q, hq⟩ := hy
          rw [hp, hq, ← Nat.pow_add] at h1 ⊢
          have h64 : 64 ≤ p + q := (Nat.pow_le_pow_iff_right (by omega)).mp h1
          exact Nat.mod_eq_zero_of_dvd (Nat.pow_dvd_pow 2 h64)
        rw [hz, show pvInfos is2 data 0 = .ok [] from rfl, Run.lift_ok_bind]
        obtain ⟨ny, rfl⟩ : ∃ k, nby = k + 1 := ⟨nby - 1, by omega⟩
        obtain ⟨nx, rfl⟩ : ∃ k, nbx = k + 1 := ⟨nbx - 1, by omega⟩
        refine Quiet.of_eq (o := .panic) (Run.bind_panic (Run.forRange_panic_first ?_ ny))
        rw [Pvrtc.pvPos_eq hny hny63, Run.lift_ok_bind]
        refine Run.forRange_panic_first ?_ nx
        simp only
        rw [Pvrtc.pvPos_eq hnx hnx63, Run.lift_ok_bind, Pvrtc.pvLocal_nil]
        rfl

end

/-! ## Programs that write -/

/-- A program records its writes and forgets none. -/
def Grows {α : Type} (x : Run α) : Prop := ∀ m r, r ∈ m.writes → r ∈ (x m).1.writes

theorem Grows.pure {α : Type} {a : α} : Grows (Pure.pure a : Run α) := fun _ _ h => h

theorem Grows.nothing {α : Type} {o : Out α} : Grows (Run.lift o) := fun _ _ h => h

theorem Grows.bind {α β : Type} {x : Run α} {f : α → Run β} (hx : Grows x) (hf : ∀ a, Grows (f a)) :
    Grows (x >>= f) := by
  intro m r hr
  show r ∈ (Run.bind x f m).1.writes
  unfold Run.bind
  have := hx m r hr
  generalize x m = y at this ⊢
  obtain ⟨m', o⟩ := y
  cases o with
  | panic => exact this
  | ok a => exact hf a m' r this

theorem Grows.write {a b : Nat} {src : List UInt32} : Grows (Run.write a b src) := by
  intro m r hr
  unfold Run.write
  cases copyFromSlice m.image a b src with
  | panic => exact hr
  | ok i => exact List.mem_append_left _ hr

theorem Grows.forRange {σ : Type} {n : Nat} {f : Nat → σ → Run σ} {s : σ} (hf : ∀ i s, Grows (f i s)) :
    Grows (Run.forRange n f s) := by
  induction n with
  | zero => exact Grows.pure
  | succ n ih => exact Grows.bind ih fun s => hf n s

/-- What the first step of a program writes is among the writes of the program. -/
theorem writes_bind {α β : Type} {x : Run α} {f : α → Run β} {m : Mem} {r : Nat × Nat}
    (hx : r ∈ (x m).1.writes) (hf : ∀ a, Grows (f a)) : r ∈ ((x >>= f) m).1.writes := by
  show r ∈ (Run.bind x f m).1.writes
  unfold Run.bind
  generalize x m = y at hx ⊢
  obtain ⟨m', o⟩ := y
  cases o with
  | panic => exact hx
  | ok a => exact hf a m' r hx

/-- What the first pass through a loop writes is among the writes of the loop. -/
theorem writes_first {σ : Type} {f : Nat → σ → Run σ} {s : σ} {m : Mem} {r : Nat × Nat}
    (h : r ∈ (f 0 s m).1.writes) (hf : ∀ i s, Grows (f i s)) (n : Nat) :
    r ∈ (Run.forRange (n + 1) f s m).1.writes := by
  induction n with
  | zero => exact h
  | succ n ih => exact writes_bind ih fun s => hf (n + 1) s

/-- The same for the second pass. -/
theorem writes_second {σ : Type} {f : Nat → σ → Run σ} {s s' : σ} {m m' : Mem} {r : Nat × Nat}
    (h0 : f 0 s m = (m', .ok s')) (h : r ∈ (f 1 s' m').1.writes) (hf : ∀ i s, Grows (f i s)) (n : Nat) :
    r ∈ (Run.forRange (n + 2) f s m).1.writes := by
  induction n with
  | zero =>
    show r ∈ (Run.bind (Run.bind (Run.forRange 0 f s) (f 0)) (f 1) m).1.writes
    have e : Run.bind (Run.forRange 0 f s) (f 0) m = (m', .ok s') := h0
    unfold Run.bind at e ⊢
    rw [e]
    exact h
  | succ n ih => exact writes_bind ih fun s => hf (n + 2) s

theorem copyBlockBufferR_grows [Build] {bx by' w h bw bh : Nat} {buffer : List UInt32} :
    Grows (copyBlockBufferR bx by' w h bw bh buffer) := by
  unfold copyBlockBufferR
  refine Grows.bind Grows.nothing fun _ => Grows.bind Grows.nothing fun _ =>
    Grows.bind Grows.nothing fun _ => Grows.bind Grows.nothing fun _ =>
    Grows.bind Grows.nothing fun _ => Grows.bind Grows.nothing fun _ =>
    Grows.bind Grows.nothing fun _ => Grows.bind Grows.nothing fun _ =>
    Grows.bind Grows.nothing fun _ => Grows.bind (Grows.forRange fun i s => ?_) fun _ => Grows.pure
  exact Grows.bind Grows.nothing fun _ => Grows.bind Grows.nothing fun _ =>
    Grows.bind Grows.nothing fun _ => Grows.bind Grows.nothing fun _ =>
    Grows.bind Grows.nothing fun _ => Grows.bind Grows.write fun _ => Grows.nothing

/-- The first block of an image that is 16 pixels wide and higher than a block: the second row of the
block goes to the second row of the image. -/
theorem copyBlockBufferR_row1 [Build] {h bw bh : Nat} {buffer : List UInt32} {m : Mem}
    (hbw : bw ≤ 16) (hbh : 2 ≤ bh) (hbh' : bh ≤ 16) (hh : bh ≤ h) (hbuf : bw * 2 ≤ buffer.length)
    (hm : 32 ≤ m.image.length) :
    (16, 16 + bw) ∈ (copyBlockBufferR 0 0 16 h bw bh buffer m).1.writes := by
  unfold copyBlockBufferR
  rw [mulU_ok (by omega), Run.lift_ok_bind, addU_ok (by omega), Run.lift_ok_bind, mulU_ok (by omega),
    Run.lift_ok_bind, if_neg (by omega)]
  show _ ∈ ((Run.lift (.ok bw) >>= _) m).1.writes
  rw [Run.lift_ok_bind, mulU_ok (by omega), Run.lift_ok_bind, Run.lift_ok_bind,
    mulU_ok (by omega), Run.lift_ok_bind, if_neg (by omega)]
  show _ ∈ ((Run.lift (.ok bh) >>= _) m).1.writes
  rw [Run.lift_ok_bind, addU_ok (by omega), Run.lift_ok_bind]
  refine writes_bind ?_ fun _ => Grows.pure
  obtain ⟨n, rfl⟩ : ∃ n, bh = n + 2 := ⟨bh - 2, by omega⟩
  rw [show 0 * (n + 2) + (n + 2) - 0 * (n + 2) = n + 2 by omega]
  have hcopy : ∀ (image : List UInt32) a b, a ≤ b → b ≤ image.length → ∀ src : List UInt32,
      src.length = b - a → ∃ image', copyFromSlice image a b src = .ok image' ∧
        image'.length = image.length := by
    intro image a b h1 h2 src h3
    unfold copyFromSlice
    refine ⟨_, if_pos ⟨h1, h2, h3⟩, ?_⟩
    simp
    omega
  obtain ⟨i1, e1, hl1⟩ := hcopy m.image 0 bw (by omega) (by omega) ((buffer.drop 0).take (bw - 0))
    (by simp; omega)
  obtain ⟨i2, e2, hl2⟩ := hcopy i1 16 (16 + bw) (by omega) (by omega) ((buffer.drop bw).take (bw + bw - bw))
    (by simp; omega)
  refine writes_second (s' := bw) (m' := ⟨i1, m.writes ++ [(0, bw)]⟩) ?_ ?_ ?_ n
  · rw [mulU_ok (by omega), Run.lift_ok_bind, addU_ok (by omega), Run.lift_ok_bind, addU_ok (by omega),
      Run.lift_ok_bind, addU_ok (by omega), Run.lift_ok_bind]
    simp only [Nat.zero_mul, Nat.mul_zero, Nat.zero_add, Nat.add_zero]
    rw [slice_ok (by omega) (by omega), Run.lift_ok_bind]
    show Run.bind (Run.write 0 bw _) _ _ = _
    unfold Run.bind Run.write
    rw [e1]
    rfl
  · rw [mulU_ok (by omega), Run.lift_ok_bind, addU_ok (by omega), Run.lift_ok_bind, addU_ok (by omega),
      Run.lift_ok_bind, addU_ok (by omega), Run.lift_ok_bind]
    simp only [Nat.zero_mul, Nat.mul_zero, Nat.zero_add, Nat.add_zero, Nat.one_mul]
    rw [slice_ok (by omega) (by omega), Run.lift_ok_bind]
    refine writes_bind ?_ fun _ => Grows.nothing
    unfold Run.write
    rw [e2]
    exact List.mem_append_right _ (List.mem_singleton.mpr rfl)
  · intro i s
    exact Grows.bind Grows.nothing fun _ => Grows.bind Grows.nothing fun _ =>
      Grows.bind Grows.nothing fun _ => Grows.bind Grows.nothing fun _ =>
      Grows.bind Grows.nothing fun _ => Grows.bind Grows.write fun _ => Grows.nothing

section
attribute [local instance] Build.release

/-- An ASTC image of `16` by `bh * 2 ^ 60 + 1` pixels passes the checks, although neither the data nor
the image is large enough, and the second row of the first block is written to `image[16..16 + bw]`. -/
theorem decodeAstcR_wrap {data : List UInt8} {bw bh : Nat} {m : Mem} (hbw : 2 ≤ bw) (hbw' : bw ≤ 15)
    (hbh : 2 ≤ bh) (hbh' : bh ≤ 15) (hb : bw * bh ≤ 144)
    (hd : data.length = Spec.ceilDiv 16 bw * 16) (hm : 32 ≤ m.image.length) {buf : List UInt32}
    (hf : decodeAstcBlock data bw bh (List.replicate 144 0) = .ok buf) (hbuf : buf.length = 144) :
    (16, 16 + bw) ∈ (decodeAstcR data 16 (bh * 2 ^ 60 + 1) bw bh m).1.writes := by
  have hnx : Spec.ceilDiv 16 bw ≤ 8 ∧ 1 ≤ Spec.ceilDiv 16 bw := by
    unfold Spec.ceilDiv
    constructor
    · rw [Nat.div_le_iff_le_mul_add_pred (by omega)]
      omega
    · exact (Nat.le_div_iff_mul_le (by omega)).mpr (by omega)
  have hny : Spec.ceilDiv (bh * 2 ^ 60 + 1) bh = 2 ^ 60 + 1 := by
    unfold Spec.ceilDiv
    rw [show bh * 2 ^ 60 + 1 + bh - 1 = bh * (2 ^ 60 + 1) by omega, Nat.mul_div_cancel_left _ (by omega)]
  have h2 : bw * 2 ≤ bw * bh := Nat.mul_le_mul_left _ hbh
  unfold decodeAstcR
  rw [divCeil_ok (by omega), Run.lift_ok_bind, divCeil_ok (by omega), Run.lift_ok_bind, ← Spec.ceilDiv,
    ← Spec.ceilDiv, hny]
  generalize Spec.ceilDiv 16 bw = nbx at *
  have e1 : mulU 64 nbx (2 ^ 60 + 1) = .ok (nbx * (2 ^ 60 + 1)) := mulU_ok (by omega)
  have e2 : mulU 64 (nbx * (2 ^ 60 + 1)) 16 = .ok (nbx * 16) := by
    unfold mulU
    rw [fitU_release]
    congr 1
    omega
  have e3 : mulU 64 16 (bh * 2 ^ 60 + 1) = .ok 16 := by
    unfold mulU
    rw [fitU_release]
    congr 1
    omega
  rw [e1, Run.lift_ok_bind, e2, Run.lift_ok_bind, if_neg (by omega), e3, Run.lift_ok_bind]
  show _ ∈ ((if m.image.length < 16 then _ else _ : Run _) m).1.writes
  rw [if_neg (by omega), mulU_ok (by omega), Run.lift_ok_bind, if_neg (by omega)]
  refine writes_bind ?_ fun _ => Grows.pure
  obtain ⟨nx, rfl⟩ : ∃ k, nbx = k + 1 := ⟨nbx - 1, by omega⟩
  have grow : ∀ by' bx (s : List UInt32 × Nat), Grows (do
            let block ← Run.lift (sliceFrom data s.2)
            let buffer ← Run.lift (decodeAstcBlock block bw bh s.1)
            let _ ← copyBlockBufferR bx by' 16 (bh * 2 ^ 60 + 1) bw bh buffer
            let dataOffset ← Run.lift (addU 64 s.2 16)
            pure (buffer, dataOffset)) := fun by' bx s =>
    Grows.bind Grows.nothing fun _ => Grows.bind Grows.nothing fun _ =>
      Grows.bind copyBlockBufferR_grows fun _ => Grows.bind Grows.nothing fun _ => Grows.pure
  refine writes_first ?_ (fun by' s => Grows.forRange (grow by')) (2 ^ 60)
  refine writes_first ?_ (grow 0) nx
  dsimp only
  rw [sliceFrom_ok (by omega), Run.lift_ok_bind, List.drop_zero, hf, Run.lift_ok_bind]
  exact writes_bind (copyBlockBufferR_row1 (by omega) hbh (by omega) (by omega) (by omega) hm)
    fun _ => Grows.bind Grows.nothing fun _ => Grows.pure

end

end Verif.Proofs
