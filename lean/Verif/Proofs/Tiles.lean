import Verif.Proofs.Image
import Verif.Proofs.Loops

/-! # A loop over all blocks that copies one buffer per block -/

namespace Verif.Proofs

open Verif Verif.Model

theorem tileLoop [Build] {S : Type} (img : S → List UInt32) (I : Nat → S → Prop)
    {w h bw bh nx ny : Nat} (body : Nat → Nat → S → Out S) (tex : Nat → Nat → Nat → UInt32)
    (s0 : S) (hbw : 0 < bw) (hbh : 0 < bh) (hn : bw * bh < 2 ^ 61)
    (hnx : nx = Spec.ceilDiv w bw) (hny : ny = Spec.ceilDiv h bh)
    (hwh : w * h ≤ (img s0).length) (himl : (img s0).length < 2 ^ 61) (h0 : I 0 s0)
    (hstep : ∀ by' bx, by' < ny → bx < nx → ∀ s, I (by' * nx + bx) s → ∃ buf : List UInt32,
      bw * bh ≤ buf.length ∧ (∀ i, i < bw * bh → buf[i]? = some (tex bx by' i)) ∧
      ∀ im, copyBlockBuffer bx by' w h bw bh buf (img s) = .ok im →
        ∃ s', body by' bx s = .ok s' ∧ img s' = im ∧ I (by' * nx + bx + 1) s') :
    ∃ s', forRange ny (fun by' s => forRange nx (fun bx s => body by' bx s) s) s0 = .ok s' ∧
      I (ny * nx) s' ∧ (img s').length = (img s0).length ∧
      (∀ x y, x < w → y < h →
        (img s')[y * w + x]? = some (tex (x / bw) (y / bh) (y % bh * bw + x % bw))) ∧
      ∀ i, w * h ≤ i → (img s')[i]? = (img s0)[i]? := by
  have hb1 : bw < 2 ^ 61 := by have := Nat.le_mul_of_pos_right bw hbh; omega
  have hb2 : bh < 2 ^ 61 := by have := Nat.le_mul_of_pos_left bh hbw; omega
  have outer := forRange_inv (n := ny) (s := s0)
    (f := fun by' s => forRange nx (fun bx s => body by' bx s) s)
    (P := fun by' s => I (by' * nx) s ∧ (img s).length = (img s0).length ∧
      (∀ i, w * h ≤ i → (img s)[i]? = (img s0)[i]?) ∧
      ∀ x y, x < w → y < h → y / bh < by' →
        (img s)[y * w + x]? = some (tex (x / bw) (y / bh) (y % bh * bw + x % bw)))
    ⟨by rw [Nat.zero_mul]; exact h0, rfl, fun _ _ => rfl,
      fun _ _ _ _ hlt => absurd hlt (Nat.not_lt_zero _)⟩
    (by
      intro by' hby s ⟨hI, hlen, hrest, hpix⟩
      have inner := forRange_inv (n := nx) (s := s) (f := fun bx s => body by' bx s)
        (P := fun bx s => I (by' * nx + bx) s ∧ (img s).length = (img s0).length ∧
          (∀ i, w * h ≤ i → (img s)[i]? = (img s0)[i]?) ∧
          ∀ x y, x < w → y < h → (y / bh < by' ∨ (y / bh = by' ∧ x / bw < bx)) →
            (img s)[y * w + x]? = some (tex (x / bw) (y / bh) (y % bh * bw + x % bw)))
        ⟨hI, hlen, hrest, fun x y hx hy hc =>
          hpix x y hx hy (hc.elim id fun h => absurd h.2 (Nat.not_lt_zero _))⟩
        (by
          rintro bx hbx s ⟨hI, hlen, hrest, hpix⟩
          obtain ⟨buf, hbl, hbpx, hgo⟩ := hstep by' bx hby hbx s hI
          have hX : bw * bx < w := ceilDiv_bound hbw (by omega)
          have hY : by' * bh < h := by
            rw [Nat.mul_comm]; exact ceilDiv_bound hbh (by omega)
          have hw0 : w ≤ w * h := Nat.le_mul_of_pos_right w (by omega)
          have hh0 : h ≤ w * h := Nat.le_mul_of_pos_left h (by omega)
          obtain ⟨img', hc, hcl, hcr, hcp⟩ := copyBlockBuffer_spec (bx := bx) (by' := by') (w := w)
            (h := h) (bw := bw) (bh := bh) (buffer := buf) (image := img s) hbw hbh hX hY hbl
            (by omega) (by omega)
            (by rw [Nat.mul_add]; omega) (by rw [Nat.mul_add, Nat.mul_comm bh by']; omega)
            (by omega)
          obtain ⟨s', e, rfl, hI'⟩ := hgo img' hc
          refine ⟨s', e, hI', by rw [hcl, hlen], ?_, ?_⟩
          · intro i hi; rw [hcr i hi, hrest i hi]
          · intro x y hx hy hxy
            rw [hcp x y hx hy]
            split
            · next hin =>
              rw [hbpx _ (by
                have h1 := Nat.mod_lt x hbw
                have h2 := Nat.mul_le_mul_right bw (Nat.mod_lt y hbh)
                rw [Nat.succ_mul, Nat.mul_comm bh bw] at h2
                omega), hin.1, hin.2]
            · next hout => exact hpix x y hx hy (by omega))
      obtain ⟨s', e, p1, p2, p3, p4⟩ := inner
      refine ⟨s', e, by rw [Nat.add_mul, Nat.one_mul]; exact p1, p2, p3, ?_⟩
      intro x y hx hy hlt
      refine p4 x y hx hy ?_
      have := div_lt_ceilDiv hbw hx
      omega)
  obtain ⟨s', e, p1, p2, p3, p4⟩ := outer
  exact ⟨s', e, p1, p2,
    fun x y hx hy => p4 x y hx hy (by have := div_lt_ceilDiv hbh hy; omega), p3⟩

/-- A loop that sets one element of a list per iteration. -/
theorem setLoop {α S : Type} {n : Nat} {f : Nat → S → Out S} (mk : Nat → List α → S)
    (π : Nat → Nat) (v : Nat → α) (l0 : List α)
    (hπ : ∀ i, i < n → π i < l0.length)
    (hinj : ∀ i j, i < n → j < n → π i = π j → i = j)
    (h : ∀ i, i < n → ∀ l, l.length = l0.length →
      f i (mk i l) = .ok (mk (i + 1) (l.set (π i) (v i)))) :
    ∃ l, forRange n f (mk 0 l0) = .ok (mk n l) ∧ l.length = l0.length ∧
      (∀ i, i < n → l[π i]? = some (v i)) ∧
      ∀ j, (∀ i, i < n → π i ≠ j) → l[j]? = l0[j]? := by
  obtain ⟨s, e, l, rfl, h1, h2, h3⟩ := forRange_inv (n := n) (f := f) (s := mk 0 l0)
    (fun k s => ∃ l, s = mk k l ∧ l.length = l0.length ∧ (∀ i, i < k → l[π i]? = some (v i)) ∧
      ∀ j, (∀ i, i < k → π i ≠ j) → l[j]? = l0[j]?)
    ⟨l0, rfl, rfl, fun _ h => absurd h (Nat.not_lt_zero _), fun _ _ => rfl⟩
    (by
      rintro i hi s ⟨l, rfl, h1, h2, h3⟩
      refine ⟨_, h i hi l h1, _, rfl, by rw [List.length_set, h1], ?_, ?_⟩
      · intro j hj
        rw [List.getElem?_set]
        by_cases hij : π i = π j
        · have := hinj i j hi (by omega) hij
          subst this
          rw [if_pos rfl, if_pos (by rw [h1]; exact hπ i hi)]
        · rw [if_neg hij]
          refine h2 j ?_
          have : j ≠ i := fun h => hij (by rw [h])
          omega
      · intro j hj
        rw [List.getElem?_set, if_neg (hj i (by omega))]
        exact h3 j (fun k hk => hj k (by omega)))
  exact ⟨l, e, h1, h2, h3⟩

end Verif.Proofs
