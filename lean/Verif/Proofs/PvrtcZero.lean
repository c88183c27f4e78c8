import Verif.Proofs.Pvrtc

/-! # PVRTC images without pixels -/

namespace Verif.Proofs.Pvrtc

open Verif Verif.Model Verif.Proofs
open Verif.Spec.Pvrtc (IsPow2 bw)

theorem pvNotPow2_zero_debug : @pvNotPow2 Build.debug 0 = .panic := rfl

theorem pvNotPow2_zero_release : @pvNotPow2 Build.release 0 = .ok false := by decide +kernel

variable [Build]

/-- Without pixels the first two checks pass. -/
theorem pv_zero {is2 : Bool} {data : List UInt8} {w h : Nat} {image : List UInt32}
    (hz : w = 0 ∨ h = 0) (hw : w < 2 ^ 64) (hh : h < 2 ^ 64) :
    decodePvrtc data w h image is2 = (do
      let badX ← pvNotPow2 (Spec.ceilDiv w (bw is2))
      let bad ← (if badX then pure true else pvNotPow2 (Spec.ceilDiv h 4))
      if bad then
        pure (.error "The number of blocks of each side must be a power of 2!", image)
      else pure (.ok (), image)) := by
  have hbw := bw_cases is2
  have hf : (if is2 = true then 8 else 4) = bw is2 := rfl
  have c0 : ∀ b, 0 < b → Spec.ceilDiv 0 b = 0 := by
    intro b hb
    unfold Spec.ceilDiv
    rw [Nat.zero_add]
    exact Nat.div_eq_of_lt (by omega)
  have hny : Spec.ceilDiv h 4 < 2 ^ 63 := by unfold Spec.ceilDiv; omega
  have hn : Spec.ceilDiv w (bw is2) * Spec.ceilDiv h 4 = 0 := by
    rcases hz with rfl | rfl
    · rw [c0 _ (by omega), Nat.zero_mul]
    · rw [c0 4 (by omega), Nat.mul_zero]
  have hwh : w * h = 0 := by
    rcases hz with rfl | rfl
    · exact Nat.zero_mul _
    · exact Nat.mul_zero _
  have hloop : ∀ (g : Nat → List Nat → Nat → List PvInfo × List UInt32 × List UInt32 →
      Out (List PvInfo × List UInt32 × List UInt32)) s,
      forRange (Spec.ceilDiv h 4) (fun by' s => do
        let posY ← pvPos by' (Spec.ceilDiv h 4)
        forRange (Spec.ceilDiv w (bw is2)) (g by' posY) s) s = .ok s := by
    intro g s
    rcases hz with rfl | rfl
    · rw [c0 _ (by omega)]
      obtain ⟨s', e, rfl⟩ := forRange_inv (n := Spec.ceilDiv h 4) (s := s) (f := fun by' s => do
        let posY ← pvPos by' (Spec.ceilDiv h 4)
        forRange 0 (g by' posY) s) (fun _ s' => s' = s) rfl (by
          intro i hi s' hs'
          rw [pvPos_eq hi hny]
          exact ⟨s', rfl, hs'⟩)
      exact e
    · rw [c0 4 (by omega)]; rfl
  unfold decodePvrtc
  simp only [hf]
  rw [divCeil_ok (by omega), Out.ok_bind, divCeil_ok (by omega), Out.ok_bind,
    ← Spec.ceilDiv, ← Spec.ceilDiv, mulU_ok (by omega), Out.ok_bind, hn,
    mulU_ok (by omega), Out.ok_bind, Nat.zero_mul, if_neg (Nat.not_lt_zero _),
    mulU_ok (by rw [hwh]; decide), Out.ok_bind, hwh, if_neg (Nat.not_lt_zero _)]
  cases e1 : pvNotPow2 (Spec.ceilDiv w (bw is2)) with
  | panic => rfl
  | ok b1 =>
    rw [Out.ok_bind, Out.ok_bind]
    cases e2 : (if b1 = true then pure true else pvNotPow2 (Spec.ceilDiv h 4)) with
    | panic => rfl
    | ok b2 =>
      rw [Out.ok_bind, Out.ok_bind]
      cases b2 with
      | true => rfl
      | false =>
        simp only [Bool.false_eq_true, if_false]
        rw [show pvInfos is2 data 0 = .ok [] from rfl, Out.ok_bind, hloop, Out.ok_bind]

end Verif.Proofs.Pvrtc
