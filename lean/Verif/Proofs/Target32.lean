import Verif.Proofs.Image32
import Verif.Proofs.Formats

/-! # The block functions on 32-bit targets decode the visible part of a block -/

namespace Verif

/-- The model of the block functions on 32-bit targets. -/
def blockFn32 [Build] : Spec.Format → List UInt8 → List UInt32 → Out (List UInt32)
  | .bc1 => Model.decodeBc1Block
  | .bc1a => Model.decodeBc1aBlock
  | .bc2 => Model.decodeBc2Block
  | .bc3 => Model.decodeBc3Block32
  | .bc4 => Model.decodeBc4Block32
  | .bc5 => Model.decodeBc5Block32
  | .bc6s => Model.decodeBc6BlockSigned
  | .bc6u => Model.decodeBc6BlockUnsigned
  | .bc7 => Model.decodeBc7Block
  | .etc1 => Model.decodeEtc1Block
  | .etc2rgb => Model.decodeEtc2RgbBlock
  | .etc2rgba1 => Model.decodeEtc2Rgba1Block
  | .etc2rgba8 => Model.decodeEtc2Rgba8Block32
  | .eacr => Model.decodeEacrBlock32
  | .eacrs => Model.decodeEacrSignedBlock32
  | .eacrg => Model.decodeEacrgBlock32
  | .eacrgs => Model.decodeEacrgSignedBlock32
  | .atcrgb => Model.decodeAtcRgb4Block
  | .atcrgba => Model.decodeAtcRgba8Block32

/-- The model of the whole-image decoders on 32-bit targets: the invocations of `block_decoder!` in
`src/bcn.rs`, `src/etc.rs` and `src/atc.rs`. -/
def decoder32 [Build] (fmt : Spec.Format) : List UInt8 → Nat → Nat → List UInt32 →
    Out (Except String Unit × List UInt32) :=
  Model.blockDecoder32 4 4 fmt.blockSize (blockFn32 fmt)

namespace Proofs

open Verif.Model Verif.Spec

theorem eight {data : List UInt8} (h : 8 ≤ data.length) :
    ∃ b0 b1 b2 b3 b4 b5 b6 b7 r, data = b0 :: b1 :: b2 :: b3 :: b4 :: b5 :: b6 :: b7 :: r := by
  match data, h with
  | b0 :: b1 :: b2 :: b3 :: b4 :: b5 :: b6 :: b7 :: r, _ => exact ⟨_, _, _, _, _, _, _, _, _, rfl⟩

theorem slice_eight (b0 b1 b2 b3 b4 b5 b6 b7 : UInt8) (r : List UInt8) :
    slice (b0 :: b1 :: b2 :: b3 :: b4 :: b5 :: b6 :: b7 :: r) 0 8 =
      .ok [b0, b1, b2, b3, b4, b5, b6, b7] := by
  simp [slice]

variable [Build]

theorem bc3Alpha32_eq (c : Nat) {data : List UInt8} (h : 8 ≤ data.length) (out : List UInt32) :
    decodeBc3Alpha32 c data out = decodeBc3Alpha c (zeroBytes 6 8 data) out := by
  obtain ⟨b0, b1, b2, b3, b4, b5, b6, b7, r, rfl⟩ := eight h
  have hz : zeroBytes 6 8 (b0 :: b1 :: b2 :: b3 :: b4 :: b5 :: b6 :: b7 :: r) =
      b0 :: b1 :: b2 :: b3 :: b4 :: b5 :: 0 :: 0 :: r := rfl
  have hd : asU 32 (fromLE (bytesOf [b0, b1, b2, b3, b4, b5, b6, b7]) >>> 16) =
      fromLE (bytesOf [b0, b1, b2, b3, b4, b5, 0, 0]) >>> 16 := by
    have := b0.toNat_lt; have := b1.toNat_lt; have := b2.toNat_lt; have := b3.toNat_lt
    have := b4.toNat_lt; have := b5.toNat_lt; have := b6.toNat_lt; have := b7.toNat_lt
    simp only [asU, bytesOf, List.map_cons, List.map_nil, fromLE, shr_eq, UInt8.toNat_zero]
    omega
  rw [hz]
  unfold decodeBc3Alpha32 decodeBc3Alpha
  rw [slice_eight, slice_eight]
  simp only [Out.ok_bind, hd]
  rfl

theorem eacCore32_eq (base bias : Int) (c : Nat) {data : List UInt8} (h : 8 ≤ data.length)
    (out : List UInt32) :
    eacCore32 base bias data c out = eacCore base bias (zeroBytes 4 8 data) c out := by
  obtain ⟨b0, b1, b2, b3, b4, b5, b6, b7, r, rfl⟩ := eight h
  have hz : zeroBytes 4 8 (b0 :: b1 :: b2 :: b3 :: b4 :: b5 :: b6 :: b7 :: r) =
      b0 :: b1 :: b2 :: b3 :: 0 :: 0 :: 0 :: 0 :: r := rfl
  have hd : asU 32 (fromLE (bytesOf [b0, b1, b2, b3, b4, b5, b6, b7])) =
      fromLE (bytesOf [b0, b1, b2, b3, 0, 0, 0, 0]) := by
    have := b0.toNat_lt; have := b1.toNat_lt; have := b2.toNat_lt; have := b3.toNat_lt
    have := b4.toNat_lt; have := b5.toNat_lt; have := b6.toNat_lt; have := b7.toNat_lt
    simp only [asU, bytesOf, List.map_cons, List.map_nil, fromLE, UInt8.toNat_zero]
    omega
  rw [hz]
  unfold eacCore32 eacCore
  rw [slice_eight, slice_eight]
  simp only [Out.ok_bind, hd]
  rfl

omit [Build] in
/-- A loop that looks at three bits of a number in each step. -/
theorem bitLoop {σ : Type} (n : Nat) (g : Nat → Nat → σ → Out σ) (l : Nat) (o : σ) :
    forRange n (fun i (s : Nat × σ) => do
        let o ← g i (s.1 &&& 7) s.2
        pure (s.1 >>> 3, o)) (l, o) =
      (forRange n (fun i o => g i (l / 2 ^ (3 * i) % 8) o) o >>=
        fun o => .ok (l / 2 ^ (3 * n), o)) := by
  induction n with
  | zero => simp [forRange]
  | succ n ih =>
    show (forRange n _ (l, o) >>= _) = ((forRange n _ o >>= _) >>= _)
    rw [ih]
    cases forRange n (fun i o => g i (l / 2 ^ (3 * i) % 8) o) o with
    | panic => rfl
    | ok o1 =>
      simp only [Out.ok_bind]
      rw [and_7]
      cases g n (l / 2 ^ (3 * n) % 8) o1 with
      | panic => rfl
      | ok o2 =>
        simp only [Out.ok_bind]
        rw [div8_succ]
        rfl

omit [Build] in
theorem bitLoop_congr {σ : Type} {n : Nat} {g : Nat → Nat → σ → Out σ} {l l' : Nat} {o : σ}
    (h : ∀ i, i < n → l / 2 ^ (3 * i) % 8 = l' / 2 ^ (3 * i) % 8) :
    (forRange n (fun i (s : Nat × σ) => do
        let o ← g i (s.1 &&& 7) s.2
        pure (s.1 >>> 3, o)) (l, o) >>= fun s => (.ok s.2 : Out σ)) =
      (forRange n (fun i (s : Nat × σ) => do
        let o ← g i (s.1 &&& 7) s.2
        pure (s.1 >>> 3, o)) (l', o) >>= fun s => .ok s.2) := by
  rw [bitLoop, bitLoop, forRange_congr (g := fun i o => g i (l' / 2 ^ (3 * i) % 8) o)]
  · cases forRange n (fun i o => g i (l' / 2 ^ (3 * i) % 8) o) o <;> rfl
  · intro i hi s; rw [h i hi]

theorem etc2A8_32_eq {data : List UInt8} (h : 8 ≤ data.length) (out : List UInt32) :
    decodeEtc2A8Block32 data out = decodeEtc2A8Block (zeroBytes 2 4 data) out := by
  obtain ⟨b0, b1, b2, b3, b4, b5, b6, b7, r, rfl⟩ := eight h
  have hz : zeroBytes 2 4 (b0 :: b1 :: b2 :: b3 :: b4 :: b5 :: b6 :: b7 :: r) =
      b0 :: b1 :: 0 :: 0 :: b4 :: b5 :: b6 :: b7 :: r := rfl
  rw [hz]
  unfold decodeEtc2A8Block32 decodeEtc2A8Block
  rw [slice_eight, slice_eight]
  have e0 : ∀ l : List UInt8, byte (b0 :: l) 0 = .ok b0.toNat := fun _ => rfl
  have e1 : ∀ l : List UInt8, byte (b0 :: b1 :: l) 1 = .ok b1.toNat := fun _ => rfl
  simp only [Out.ok_bind, e0, e1]
  split
  · cases idx etc2AlphaModTable (b1.toNat &&& 0xf) with
    | panic => rfl
    | ok table =>
      simp only [Out.ok_bind]
      have key := bitLoop_congr (n := 16) (o := out)
        (l := asU 32 (fromBE (bytesOf [b0, b1, b2, b3, b4, b5, b6, b7])))
        (l' := fromBE (bytesOf [b0, b1, 0, 0, b4, b5, b6, b7]))
        (g := fun i k o => do
          let t ← idx table k
          let m ← mulI 32 ((b1.toNat >>> 4 : Nat) : Int) t
          let a ← addI 32 b0.toNat m
          let pos ← idx writeOrderTableRev i
          let p ← idx o pos
          setIdx o pos (setAlpha (etcClamp a) p))
        (by
          have := b0.toNat_lt; have := b1.toNat_lt; have := b2.toNat_lt; have := b3.toNat_lt
          have := b4.toNat_lt; have := b5.toNat_lt; have := b6.toNat_lt; have := b7.toNat_lt
          intro i hi
          have h1 : asU 32 (fromBE (bytesOf [b0, b1, b2, b3, b4, b5, b6, b7])) =
              b7.toNat + 256 * (b6.toNat + 256 * (b5.toNat + 256 * b4.toNat)) := by
            show (b7.toNat + 256 * (b6.toNat + 256 * (b5.toNat + 256 * (b4.toNat + 256 * (b3.toNat +
              256 * (b2.toNat + 256 * (b1.toNat + 256 * (b0.toNat + 256 * 0)))))))) % 2 ^ 32 = _
            omega
          have h2 : fromBE (bytesOf [b0, b1, 0, 0, b4, b5, b6, b7]) =
              b7.toNat + 256 * (b6.toNat + 256 * (b5.toNat + 256 * b4.toNat)) +
                2 ^ 48 * (b1.toNat + 256 * b0.toNat) := by
            show b7.toNat + 256 * (b6.toNat + 256 * (b5.toNat + 256 * (b4.toNat + 256 * (0 +
              256 * (0 + 256 * (b1.toNat + 256 * (b0.toNat + 256 * 0))))))) = _
            omega
          rw [h1, h2]
          generalize b7.toNat + 256 * (b6.toNat + 256 * (b5.toNat + 256 * b4.toNat)) = A
          generalize b1.toNat + 256 * b0.toNat = K
          obtain rfl | rfl | rfl | rfl | rfl | rfl | rfl | rfl | rfl | rfl | rfl | rfl | rfl | rfl |
            rfl | rfl : i = 0 ∨ i = 1 ∨ i = 2 ∨ i = 3 ∨ i = 4 ∨ i = 5 ∨ i = 6 ∨ i = 7 ∨ i = 8 ∨ i = 9 ∨
              i = 10 ∨ i = 11 ∨ i = 12 ∨ i = 13 ∨ i = 14 ∨ i = 15 := by omega
          all_goals
            simp only [Nat.reduceMul, Nat.reducePow]
            omega)
      simp only [Out.bind_assoc] at key
      exact key
  · rfl

omit [Build] in
theorem sixteen {data : List UInt8} (h : 16 ≤ data.length) :
    ∃ b0 b1 b2 b3 b4 b5 b6 b7 c0 c1 c2 c3 c4 c5 c6 c7 r,
      data = b0 :: b1 :: b2 :: b3 :: b4 :: b5 :: b6 :: b7 ::
        c0 :: c1 :: c2 :: c3 :: c4 :: c5 :: c6 :: c7 :: r := by
  match data, h with
  | b0 :: b1 :: b2 :: b3 :: b4 :: b5 :: b6 :: b7 ::
        c0 :: c1 :: c2 :: c3 :: c4 :: c5 :: c6 :: c7 :: r, _ =>
    exact ⟨_, _, _, _, _, _, _, _, _, _, _, _, _, _, _, _, _, rfl⟩

omit [Build] in
theorem visible32_take (fmt : Spec.Format) {data : List UInt8} (h : fmt.blockSize ≤ data.length) :
    (fmt.visible32 data).take fmt.blockSize = fmt.visible32 (data.take fmt.blockSize) := by
  cases fmt
  case bc4 | eacr | eacrs => obtain ⟨_, _, _, _, _, _, _, _, _, rfl⟩ := eight h; rfl
  case bc3 | bc5 | etc2rgba8 | eacrg | eacrgs | atcrgba =>
    obtain ⟨_, _, _, _, _, _, _, _, _, _, _, _, _, _, _, _, _, rfl⟩ := sixteen h; rfl
  all_goals rfl

omit [Build] in
theorem zeroBytes_length {a b : Nat} {l : List UInt8} (h : a ≤ b) (h2 : b ≤ l.length) :
    (zeroBytes a b l).length = l.length := by
  unfold zeroBytes
  simp only [List.length_append, List.length_take, List.length_replicate, List.length_drop]
  omega

omit [Build] in
theorem visible32_length (fmt : Spec.Format) {data : List UInt8} (h : fmt.blockSize ≤ data.length) :
    (fmt.visible32 data).length = data.length := by
  cases fmt
  case bc4 | eacr | eacrs => obtain ⟨_, _, _, _, _, _, _, _, _, rfl⟩ := eight h; rfl
  case bc3 | bc5 | etc2rgba8 | eacrg | eacrgs | atcrgba =>
    obtain ⟨_, _, _, _, _, _, _, _, _, _, _, _, _, _, _, _, _, rfl⟩ := sixteen h; rfl
  all_goals rfl

omit [Build] in
theorem visible32_legal (fmt : Spec.Format) (blk : List UInt8) :
    fmt.Legal (fmt.visible32 blk) ↔ fmt.Legal blk := by
  cases fmt <;> exact Iff.rfl

theorem bc3Alpha_first8 {c : Nat} {b0 b1 b2 b3 b4 b5 b6 b7 : UInt8} {r r' : List UInt8}
    {out : List UInt32} :
    decodeBc3Alpha c (b0 :: b1 :: b2 :: b3 :: b4 :: b5 :: b6 :: b7 :: r) out =
      decodeBc3Alpha c (b0 :: b1 :: b2 :: b3 :: b4 :: b5 :: b6 :: b7 :: r') out := by
  unfold decodeBc3Alpha
  rw [slice_eight, slice_eight]
  rfl

theorem eac_first8 {c : Nat} {b0 b1 b2 b3 b4 b5 b6 b7 : UInt8} {r r' : List UInt8}
    {out : List UInt32} :
    decodeEacBlock (b0 :: b1 :: b2 :: b3 :: b4 :: b5 :: b6 :: b7 :: r) c out =
      decodeEacBlock (b0 :: b1 :: b2 :: b3 :: b4 :: b5 :: b6 :: b7 :: r') c out := by
  unfold decodeEacBlock eacCore
  rw [slice_eight, slice_eight]
  rfl

theorem eacSigned_first8 {c : Nat} {b0 b1 b2 b3 b4 b5 b6 b7 : UInt8} {r r' : List UInt8}
    {out : List UInt32} :
    decodeEacSignedBlock (b0 :: b1 :: b2 :: b3 :: b4 :: b5 :: b6 :: b7 :: r) c out =
      decodeEacSignedBlock (b0 :: b1 :: b2 :: b3 :: b4 :: b5 :: b6 :: b7 :: r') c out := by
  unfold decodeEacSignedBlock eacCore
  rw [slice_eight, slice_eight]
  rfl

theorem eac32_eq (c : Nat) {data : List UInt8} (h : 8 ≤ data.length) (out : List UInt32) :
    decodeEacBlock32 data c out = decodeEacBlock (zeroBytes 4 8 data) c out := by
  unfold decodeEacBlock32 decodeEacBlock
  have e : ∀ b : Int, eacCore32 b 4 data c out = eacCore b 4 (zeroBytes 4 8 data) c out :=
    fun b => eacCore32_eq b 4 c h out
  simp only [e]
  obtain ⟨_, _, _, _, _, _, _, _, _, rfl⟩ := eight h
  rfl

theorem eacSigned32_eq (c : Nat) {data : List UInt8} (h : 8 ≤ data.length) (out : List UInt32) :
    decodeEacSignedBlock32 data c out = decodeEacSignedBlock (zeroBytes 4 8 data) c out := by
  unfold decodeEacSignedBlock32 decodeEacSignedBlock
  have e : ∀ b : Int, eacCore32 b 1023 data c out = eacCore b 1023 (zeroBytes 4 8 data) c out :=
    fun b => eacCore32_eq b 1023 c h out
  simp only [e]
  obtain ⟨_, _, _, _, _, _, _, _, _, rfl⟩ := eight h
  rfl

theorem bc3Fn32_eq {data : List UInt8} (h : 16 ≤ data.length) (out : List UInt32) :
    blockFn32 .bc3 data out = blockFn .bc3 (Spec.Format.visible32 .bc3 data) out := by
  have e : ∀ o, decodeBc3Alpha32 3 data o = decodeBc3Alpha 3 (zeroBytes 6 8 data) o :=
    bc3Alpha32_eq 3 (Nat.le_trans (by decide) h)
  show decodeBc3Block32 data out = decodeBc3Block (zeroBytes 6 8 data) out
  unfold decodeBc3Block32 decodeBc3Block
  simp only [e]
  obtain ⟨_, _, _, _, _, _, _, _, _, _, _, _, _, _, _, _, _, rfl⟩ := sixteen h
  rfl

theorem atcrgbaFn32_eq {data : List UInt8} (h : 16 ≤ data.length) (out : List UInt32) :
    blockFn32 .atcrgba data out = blockFn .atcrgba (Spec.Format.visible32 .atcrgba data) out := by
  have e : ∀ o, decodeBc3Alpha32 3 data o = decodeBc3Alpha 3 (zeroBytes 6 8 data) o :=
    bc3Alpha32_eq 3 (Nat.le_trans (by decide) h)
  show decodeAtcRgba8Block32 data out = decodeAtcRgba8Block (zeroBytes 6 8 data) out
  unfold decodeAtcRgba8Block32 decodeAtcRgba8Block
  simp only [e]
  obtain ⟨_, _, _, _, _, _, _, _, _, _, _, _, _, _, _, _, _, rfl⟩ := sixteen h
  rfl

theorem etc2rgba8Fn32_eq {data : List UInt8} (h : 16 ≤ data.length) (out : List UInt32) :
    blockFn32 .etc2rgba8 data out = blockFn .etc2rgba8 (Spec.Format.visible32 .etc2rgba8 data) out := by
  have e : ∀ o, decodeEtc2A8Block32 data o = decodeEtc2A8Block (zeroBytes 2 4 data) o :=
    etc2A8_32_eq (Nat.le_trans (by decide) h)
  show decodeEtc2Rgba8Block32 data out = decodeEtc2Rgba8Block (zeroBytes 2 4 data) out
  unfold decodeEtc2Rgba8Block32 decodeEtc2Rgba8Block
  simp only [e]
  obtain ⟨_, _, _, _, _, _, _, _, _, _, _, _, _, _, _, _, _, rfl⟩ := sixteen h
  rfl

theorem bc5Fn32_eq {data : List UInt8} (h : 16 ≤ data.length) (out : List UInt32) :
    blockFn32 .bc5 data out = blockFn .bc5 (Spec.Format.visible32 .bc5 data) out := by
  show decodeBc5Block32 data out = decodeBc5Block (zeroBytes 6 8 (zeroBytes 14 16 data)) out
  obtain ⟨b0, b1, b2, b3, b4, b5, b6, b7, c0, c1, c2, c3, c4, c5, c6, c7, r, rfl⟩ := sixteen h
  unfold decodeBc5Block32 decodeBc5Block
  rw [bc3Alpha32_eq 2 (by simp), sliceFrom_ok (by simp)]
  simp only [Out.ok_bind]
  show (do
    let o ← decodeBc3Alpha 2 (b0 :: b1 :: b2 :: b3 :: b4 :: b5 :: 0 :: 0 :: _) out
    decodeBc3Alpha32 1 (c0 :: c1 :: c2 :: c3 :: c4 :: c5 :: c6 :: c7 :: r) o) =
    (do
    let o ← decodeBc3Alpha 2 (b0 :: b1 :: b2 :: b3 :: b4 :: b5 :: 0 :: 0 :: _) out
    decodeBc3Alpha 1 (c0 :: c1 :: c2 :: c3 :: c4 :: c5 :: 0 :: 0 :: r) o)
  rw [bc3Alpha_first8 (r' := [])]
  conv => rhs; rw [bc3Alpha_first8 (r' := [])]
  congr 1
  funext o
  exact bc3Alpha32_eq 1 (by simp) o

theorem eacrFn32_eq {data : List UInt8} (h : 8 ≤ data.length) (out : List UInt32) :
    blockFn32 .eacr data out = blockFn .eacr (Spec.Format.visible32 .eacr data) out := by
  show (do let o ← fillRange out 0 16 (color 0 0 0 255); decodeEacBlock32 data 2 o) =
    (do let o ← fillRange out 0 16 (color 0 0 0 255); decodeEacBlock (zeroBytes 4 8 data) 2 o)
  congr 1; funext o; exact eac32_eq 2 h o

theorem eacrsFn32_eq {data : List UInt8} (h : 8 ≤ data.length) (out : List UInt32) :
    blockFn32 .eacrs data out = blockFn .eacrs (Spec.Format.visible32 .eacrs data) out := by
  show (do let o ← fillRange out 0 16 (color 0 0 0 255); decodeEacSignedBlock32 data 2 o) =
    (do let o ← fillRange out 0 16 (color 0 0 0 255)
        decodeEacSignedBlock (zeroBytes 4 8 data) 2 o)
  congr 1; funext o; exact eacSigned32_eq 2 h o

theorem eacrg_parts {data : List UInt8} (h : 16 ≤ data.length) {c : Nat} {o : List UInt32} :
    decodeEacBlock (zeroBytes 4 8 data) c o =
        decodeEacBlock (zeroBytes 4 8 (zeroBytes 12 16 data)) c o ∧
      decodeEacSignedBlock (zeroBytes 4 8 data) c o =
        decodeEacSignedBlock (zeroBytes 4 8 (zeroBytes 12 16 data)) c o ∧
      sliceFrom (zeroBytes 4 8 (zeroBytes 12 16 data)) 8 = .ok (zeroBytes 4 8 (data.drop 8)) := by
  obtain ⟨b0, b1, b2, b3, b4, b5, b6, b7, c0, c1, c2, c3, c4, c5, c6, c7, r, rfl⟩ := sixteen h
  have z : ∀ l, zeroBytes 4 8 (b0 :: b1 :: b2 :: b3 :: b4 :: b5 :: b6 :: b7 :: l) =
      b0 :: b1 :: b2 :: b3 :: 0 :: 0 :: 0 :: 0 :: l := fun _ => rfl
  have z2 : zeroBytes 12 16 (b0 :: b1 :: b2 :: b3 :: b4 :: b5 :: b6 :: b7 :: c0 :: c1 :: c2 :: c3 ::
      c4 :: c5 :: c6 :: c7 :: r) = b0 :: b1 :: b2 :: b3 :: b4 :: b5 :: b6 :: b7 :: c0 :: c1 :: c2 ::
      c3 :: 0 :: 0 :: 0 :: 0 :: r := rfl
  rw [z2, z, z]
  exact ⟨eac_first8, eacSigned_first8, sliceFrom_ok (by simp)⟩

theorem eacrgFn32_eq {data : List UInt8} (h : 16 ≤ data.length) (out : List UInt32) :
    blockFn32 .eacrg data out = blockFn .eacrg (Spec.Format.visible32 .eacrg data) out := by
  show decodeEacrgBlock32 data out =
    decodeEacrgBlock (zeroBytes 4 8 (zeroBytes 12 16 data)) out
  have e1 : ∀ o, decodeEacBlock32 data 2 o =
      decodeEacBlock (zeroBytes 4 8 (zeroBytes 12 16 data)) 2 o := fun o =>
    (eac32_eq 2 (by omega) o).trans (eacrg_parts h).1
  have e2 := (eacrg_parts h (c := 0) (o := [])).2.2
  have e3 : ∀ o, decodeEacBlock32 (data.drop 8) 1 o =
      decodeEacBlock (zeroBytes 4 8 (data.drop 8)) 1 o :=
    eac32_eq 1 (by simp; omega)
  unfold decodeEacrgBlock32 decodeEacrgBlock
  rw [sliceFrom_ok (by omega), e2]
  simp only [Out.ok_bind, e1, e3]

theorem eacrgsFn32_eq {data : List UInt8} (h : 16 ≤ data.length) (out : List UInt32) :
    blockFn32 .eacrgs data out = blockFn .eacrgs (Spec.Format.visible32 .eacrgs data) out := by
  show decodeEacrgSignedBlock32 data out =
    decodeEacrgSignedBlock (zeroBytes 4 8 (zeroBytes 12 16 data)) out
  have e1 : ∀ o, decodeEacSignedBlock32 data 2 o =
      decodeEacSignedBlock (zeroBytes 4 8 (zeroBytes 12 16 data)) 2 o := fun o =>
    (eacSigned32_eq 2 (by omega) o).trans (eacrg_parts h).2.1
  have e2 := (eacrg_parts h (c := 0) (o := [])).2.2
  have e3 : ∀ o, decodeEacSignedBlock32 (data.drop 8) 1 o =
      decodeEacSignedBlock (zeroBytes 4 8 (data.drop 8)) 1 o :=
    eacSigned32_eq 1 (by simp; omega)
  unfold decodeEacrgSignedBlock32 decodeEacrgSignedBlock
  rw [sliceFrom_ok (by omega), e2]
  simp only [Out.ok_bind, e1, e3]

theorem blockFn32_eq (fmt : Spec.Format) {data : List UInt8} (h : fmt.blockSize ≤ data.length)
    (out : List UInt32) : blockFn32 fmt data out = blockFn fmt (fmt.visible32 data) out := by
  cases fmt
  case bc4 => exact bc3Alpha32_eq 2 h out
  case bc3 => exact bc3Fn32_eq h out
  case atcrgba => exact atcrgbaFn32_eq h out
  case etc2rgba8 => exact etc2rgba8Fn32_eq h out
  case bc5 => exact bc5Fn32_eq h out
  case eacr => exact eacrFn32_eq h out
  case eacrs => exact eacrsFn32_eq h out
  case eacrg => exact eacrgFn32_eq h out
  case eacrgs => exact eacrgsFn32_eq h out
  all_goals rfl

theorem blockFn32_contract (fmt : Spec.Format) :
    ∃ Inv, BlockContract (blockFn32 fmt) (4 * 4) fmt.blockSize fmt.Legal
      (fun blk => fmt.texel (fmt.visible32 blk)) Inv := by
  obtain ⟨Inv, C⟩ := blockFn_contract fmt
  refine ⟨Inv, C.init, ?_⟩
  intro data buf hd hl hb
  rw [blockFn32_eq fmt hd, ← visible32_take fmt hd]
  refine C.step _ buf (by rw [visible32_length fmt hd]; exact hd) ?_ hb
  rw [visible32_take fmt hd]
  exact (visible32_legal fmt _).mpr hl

theorem decoder32_spec (fmt : Spec.Format) :
    Spec.DecodesLegal32 (decoder32 fmt) 4 4 fmt.blockSize fmt.Legal
      (fun blk => fmt.texel (fmt.visible32 blk)) := by
  obtain ⟨Inv, C⟩ := blockFn32_contract fmt
  exact blockDecoder32_spec (by omega) (by omega) (blockSize_pos fmt) (by omega) C

end Proofs
end Verif
