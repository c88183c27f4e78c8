import Verif.Spec.Move
import Verif.Proofs.Channels

/-! # Rearranging the texels of blocks -/

namespace Verif.Proofs

open Verif.Spec

theorem field_field {a b : List UInt8} {N : Nat} (h : field b 0 N = field a 0 N) {p n : Nat}
    (hp : p + n ≤ N) : field b p n = field a p n := by
  unfold field at *
  rw [Nat.pow_zero, Nat.div_one, Nat.div_one] at h
  have key : ∀ X : Nat, X / 2 ^ p % 2 ^ n = X % 2 ^ N / 2 ^ p % 2 ^ n := fun X => by
    obtain ⟨m, rfl⟩ : ∃ m, N = p + n + m := ⟨N - (p + n), by omega⟩
    rw [Nat.pow_add, Nat.pow_add]
    rw [Nat.mul_assoc, Nat.mod_mul_right_div_self, Nat.mod_mul_right_mod]
  rw [key, h, ← key]

/-- A field within one byte. -/
theorem field_byte {data : List UInt8} {p q n : Nat} {b : UInt8} (h : data[p]? = some b)
    (hq : q + n ≤ 8) : field data (8 * p + q) n = b.toNat / 2 ^ q % 2 ^ n := by
  rw [← field_drop]
  have e : (data.drop p).take 1 = [b] := by
    obtain ⟨hp, rfl⟩ := List.getElem?_eq_some_iff.1 h
    rw [List.drop_eq_getElem_cons hp]; rfl
  have h1 := field_take (data := data.drop p) (raw := 1) (pos := q) (n := n) (by omega)
  rw [field_eq, ← h1, e]
  simp [field, leNat]

theorem bc1Texel_moved {σ : Rearrangement} {a b : List UInt8} (h : ColoursMoved σ a b) (pt : Bool)
    {i : Nat} (hi : i < 16) : bc1Texel pt b i = bc1Texel pt a (σ i) := by
  obtain ⟨h1, h2⟩ := h
  unfold bc1Texel
  rw [h2 i hi, field_field h1 (p := 0) (n := 16) (by decide),
    field_field h1 (p := 16) (n := 16) (by decide)]

theorem bc3Value_moved {σ : Rearrangement} {a b : List UInt8} (h : ValuesMoved σ a b)
    {i : Nat} (hi : i < 16) : bc3Value b i = bc3Value a (σ i) := by
  obtain ⟨h1, h2⟩ := h
  unfold bc3Value byteAt
  rw [h2 i hi, field_field h1 (p := 8 * 0) (n := 8) (by decide),
    field_field h1 (p := 8 * 1) (n := 8) (by decide)]

theorem atcTexel_moved {σ : Rearrangement} {a b : List UInt8} (h : ColoursMoved σ a b)
    {i : Nat} (hi : i < 16) : Atc.rgbTexelAsIs b i = Atc.rgbTexelAsIs a (σ i) := by
  obtain ⟨h1, h2⟩ := h
  unfold Atc.rgbTexelAsIs Atc.texelWith Atc.alternate Atc.end0 Atc.end1 Atc.index
  rw [h2 i hi, field_field h1 (p := 15) (n := 1) (by decide),
    field_field h1 (p := 10) (n := 5) (by decide), field_field h1 (p := 5) (n := 5) (by decide),
    field_field h1 (p := 0) (n := 5) (by decide), field_field h1 (p := 27) (n := 5) (by decide),
    field_field h1 (p := 21) (n := 6) (by decide), field_field h1 (p := 16) (n := 5) (by decide)]

theorem texel_moved {fmt : Format} {σ : Rearrangement} {a b : List UInt8} (h : fmt.BlockMoved σ a b)
    {i : Nat} (hi : i < 16) : fmt.texel b i = fmt.texel a (σ i) := by
  cases fmt with
  | bc1 => exact bc1Texel_moved h false hi
  | bc1a => exact bc1Texel_moved h true hi
  | bc2 =>
      obtain ⟨h1, h2⟩ := h
      show bc2Texel b i = bc2Texel a (σ i)
      have e := h1 i hi
      rw [Nat.zero_add, Nat.zero_add] at e
      unfold bc2Texel
      rw [bc1Texel_moved h2 false hi, e]
  | bc3 =>
      obtain ⟨h1, h2⟩ := h
      show bc3Texel b i = bc3Texel a (σ i)
      unfold bc3Texel
      rw [bc1Texel_moved h2 false hi, bc3Value_moved h1 hi]
  | bc4 =>
      show bc4Texel b i = bc4Texel a (σ i)
      unfold bc4Texel
      rw [bc3Value_moved h hi]
  | bc5 =>
      obtain ⟨h1, h2⟩ := h
      show bc5Texel b i = bc5Texel a (σ i)
      unfold bc5Texel
      rw [bc3Value_moved h1 hi, bc3Value_moved h2 hi]
  | atcrgb => exact atcTexel_moved h hi
  | atcrgba =>
      obtain ⟨h1, h2⟩ := h
      show Atc.rgbaTexelAsIs b i = Atc.rgbaTexelAsIs a (σ i)
      unfold Atc.rgbaTexelAsIs
      rw [atcTexel_moved h2 hi, bc3Value_moved h1 hi]
  | _ => exact h.elim

theorem moved_not_bc6 {fmt : Format} {σ : Rearrangement} {a b : List UInt8} (h : fmt.BlockMoved σ a b) :
    fmt ≠ .bc6s ∧ fmt ≠ .bc6u :=
  ⟨fun e => by subst e; exact h, fun e => by subst e; exact h⟩

end Verif.Proofs
