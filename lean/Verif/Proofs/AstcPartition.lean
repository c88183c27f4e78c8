import Verif.Proofs.AstcParams
import Verif.Proofs.AstcEndpoints
import Verif.Proofs.Tiles

/-! # Partitions of ASTC blocks -/

namespace Verif.Proofs.Astc

open Verif Verif.Model Verif.Proofs
open Verif.Spec.Astc (parts hash52 partitionAt)

/-! ## The hash -/

theorem xor_lt32 {a b : Nat} (ha : a < 2 ^ 32) (hb : b < 2 ^ 32) : a ^^^ b < 2 ^ 32 :=
  Nat.xor_lt_two_pow ha hb

theorem toNat_shr (x : UInt32) (k : Nat) (hk : k < 32) : (x >>> UInt32.ofNat k).toNat = x.toNat >>> k := by
  rw [UInt32.toNat_shiftRight, UInt32.toNat_ofNat', Nat.mod_eq_of_lt (show k < 2 ^ 32 by omega),
    Nat.mod_eq_of_lt hk]

theorem toNat_shl (x : UInt32) (k : Nat) (hk : k < 32) :
    (x <<< UInt32.ofNat k).toNat = asU 32 (x.toNat <<< k) := by
  rw [UInt32.toNat_shiftLeft, UInt32.toNat_ofNat', Nat.mod_eq_of_lt (show k < 2 ^ 32 by omega),
    Nat.mod_eq_of_lt hk]
  rfl

theorem toNat_sub' (x y : UInt32) : (x - y).toNat = asU 32 (x.toNat + 2 ^ 32 - y.toNat) := by
  rw [UInt32.toNat_sub]
  unfold asU
  have := y.toNat_lt
  congr 1
  omega

theorem toNat_add' (x y : UInt32) : (x + y).toNat = asU 32 (x.toNat + y.toNat) := UInt32.toNat_add x y

theorem partitionHash_eq (p : UInt32) : partitionHash p.toNat = (hash52 p).toNat := by
  unfold partitionHash hash52
  simp only [UInt32.toNat_xor, toNat_add', toNat_sub',
    show ∀ x : UInt32, (x >>> 15).toNat = x.toNat >>> 15 from fun x => toNat_shr x 15 (by omega),
    show ∀ x : UInt32, (x >>> 5).toNat = x.toNat >>> 5 from fun x => toNat_shr x 5 (by omega),
    show ∀ x : UInt32, (x >>> 7).toNat = x.toNat >>> 7 from fun x => toNat_shr x 7 (by omega),
    show ∀ x : UInt32, (x >>> 3).toNat = x.toNat >>> 3 from fun x => toNat_shr x 3 (by omega),
    show ∀ x : UInt32, (x >>> 17).toNat = x.toNat >>> 17 from fun x => toNat_shr x 17 (by omega),
    show ∀ x : UInt32, (x <<< 17).toNat = asU 32 (x.toNat <<< 17) from fun x => toNat_shl x 17 (by omega),
    show ∀ x : UInt32, (x <<< 7).toNat = asU 32 (x.toNat <<< 7) from fun x => toNat_shl x 7 (by omega),
    show ∀ x : UInt32, (x <<< 4).toNat = asU 32 (x.toNat <<< 4) from fun x => toNat_shl x 4 (by omega),
    show ∀ x : UInt32, (x <<< 16).toNat = asU 32 (x.toNat <<< 16) from fun x => toNat_shl x 16 (by omega),
    show ∀ x : UInt32, (x <<< 6).toNat = asU 32 (x.toNat <<< 6) from fun x => toNat_shl x 6 (by omega)]

variable [Build]

/-! ## The partition of a texel -/

/-- The scaled seeds. -/
def seedAt (rnum sh1 sh2 i : Nat) : Nat :=
  let v := rnum / 2 ^ (4 * i) % 16
  v * v / 2 ^ (if i % 2 = 0 then sh1 else sh2)

omit [Build] in
theorem seedAt_le (rnum sh1 sh2 i : Nat) : seedAt rnum sh1 sh2 i ≤ 225 := by
  unfold seedAt
  simp only
  have h : rnum / 2 ^ (4 * i) % 16 ≤ 15 := by omega
  generalize rnum / 2 ^ (4 * i) % 16 = v at *
  have h1 : v * v ≤ 15 * 15 := Nat.mul_le_mul h h
  exact Nat.le_trans (Nat.div_le_self _ _) h1

theorem partitionSum_ok {seeds : List Int} {S : Nat → Nat} {k rnum sh x y : Nat}
    (h0 : seeds[k]? = some (S k : Int)) (h1 : seeds[k + 1]? = some (S (k + 1) : Int))
    (hS : ∀ i, S i ≤ 225) (hr : rnum < 2 ^ 32) (hsh : 2 ≤ sh) (hx : x ≤ 1000) (hy : y ≤ 1000) :
    partitionSum seeds k rnum sh x y =
      .ok (((S k * x + S (k + 1) * y + rnum / 2 ^ sh) % 64 : Nat) : Int) := by
  have m1 : S k * x ≤ 225 * 1000 := Nat.mul_le_mul (hS _) hx
  have m2 : S (k + 1) * y ≤ 225 * 1000 := Nat.mul_le_mul (hS _) hy
  have m3 : rnum / 2 ^ sh ≤ rnum / 2 ^ 2 :=
    Nat.div_le_div_left (Nat.pow_le_pow_right (by omega) hsh) (by decide)
  unfold partitionSum
  rw [idx_of_some h0, Out.ok_bind, idx_of_some h1, Out.ok_bind, asI_nat (by omega), asI_nat (by omega),
    shr_eq, asI_nat (by omega), mulI_nat (by omega), Out.ok_bind, mulI_nat (by omega), Out.ok_bind,
    addI_nat (by omega), Out.ok_bind, addI_nat (by omega), Out.ok_bind, andI_x3f (by omega)]
  rfl

theorem partitionOf_ok {seeds : List Int} {S : Nat → Nat} {rnum n x y : Nat}
    (h : ∀ i, i < 8 → seeds[i]? = some (S i : Int)) (hS : ∀ i, S i ≤ 225) (hr : rnum < 2 ^ 32)
    (hx : x ≤ 1000) (hy : y ≤ 1000) :
    partitionOf seeds rnum n x y = .ok
      (let a := (S 0 * x + S 1 * y + rnum / 2 ^ 14) % 64
       let b := (S 2 * x + S 3 * y + rnum / 2 ^ 10) % 64
       let c := if n < 3 then 0 else (S 4 * x + S 5 * y + rnum / 2 ^ 6) % 64
       let d := if n < 4 then 0 else (S 6 * x + S 7 * y + rnum / 2 ^ 2) % 64
       if b ≤ a ∧ c ≤ a ∧ d ≤ a then 0 else if c ≤ b ∧ d ≤ b then 1 else if d ≤ c then 2 else 3) := by
  unfold partitionOf
  rw [partitionSum_ok (h 0 (by omega)) (h 1 (by omega)) hS hr (by omega) hx hy, Out.ok_bind,
    partitionSum_ok (h 2 (by omega)) (h 3 (by omega)) hS hr (by omega) hx hy, Out.ok_bind]
  have hc : (if n < 3 then (pure 0 : Out Int) else partitionSum seeds 4 rnum 6 x y) =
      .ok ((if n < 3 then 0 else (S 4 * x + S 5 * y + rnum / 2 ^ 6) % 64 : Nat) : Int) := by
    by_cases h3 : n < 3
    · rw [if_pos h3, if_pos h3]; rfl
    · rw [if_neg h3, if_neg h3,
        partitionSum_ok (h 4 (by omega)) (h 5 (by omega)) hS hr (by omega) hx hy]
  have hd : (if n < 4 then (pure 0 : Out Int) else partitionSum seeds 6 rnum 2 x y) =
      .ok ((if n < 4 then 0 else (S 6 * x + S 7 * y + rnum / 2 ^ 2) % 64 : Nat) : Int) := by
    by_cases h3 : n < 4
    · rw [if_pos h3, if_pos h3]; rfl
    · rw [if_neg h3, if_neg h3,
        partitionSum_ok (h 6 (by omega)) (h 7 (by omega)) hS hr (by omega) hx hy]
  rw [hc, Out.ok_bind, hd, Out.ok_bind]
  simp only [ge_iff_le, Int.ofNat_le]
  rfl

omit [Build] in
theorem pick_lt {a b c d n : Nat} (hc : n < 3 → c = 0) (hd : n < 4 → d = 0) (h2 : 2 ≤ n) :
    (if b ≤ a ∧ c ≤ a ∧ d ≤ a then 0 else if c ≤ b ∧ d ≤ b then 1 else if d ≤ c then 2 else 3) < n := by
  split
  · omega
  · split
    · omega
    · split <;> omega

omit [Build] in
/-- The partition of a texel is one of the partitions. -/
theorem selectPartition_lt {seed x y n : Nat} {small : Bool} (h1 : 2 ≤ n) :
    Spec.Astc.selectPartition seed x y n small < n := by
  unfold Spec.Astc.selectPartition
  simp only
  exact pick_lt (fun h => if_pos h) (fun h => if_pos h) h1

theorem selectPartition_ok {buf : List UInt8} (hd : 16 ≤ buf.length) {bw bh : Nat}
    (hb : bw * bh ≤ 144) (hP : parts (buf.take 16) ≠ 1) :
    ∃ ps, selectPartition buf bw bh (parts (buf.take 16)) = .ok ps ∧
      ∀ i, i < bw * bh → ps[i]? = some (partitionAt (buf.take 16) bw bh (i % bw) (i / bw)) := by
  obtain ⟨hP1, hP4⟩ := parts_bounds (buf.take 16)
  unfold selectPartition
  generalize hn : parts (buf.take 16) = n at *
  have hD : Spec.leNat (buf.take 4) < 2 ^ 32 := by
    have := leNat_lt (buf.take 4)
    rw [List.length_take] at this
    exact Nat.lt_of_lt_of_le this (Nat.pow_le_pow_right (by omega) (by omega))
  have hseed : andI 32 (shr32 (asI 32 (Spec.leNat (buf.take 4))) 13) 0x3ff =
      ((Spec.field (buf.take 16) 13 10 : Nat) : Int) := by
    unfold shr32
    rw [show (0x3ff : Int) = 2 ^ 10 - 1 from rfl, andI_shift hD (by omega) (by omega),
      field_take (by omega), leNat_take]
    generalize Spec.leNat buf = D
    omega
  have hf : Spec.field (buf.take 16) 13 10 < 2 ^ 10 := field_lt _ _ _
  rw [slice_ok (by omega) (by omega), Out.ok_bind, List.drop_zero, fromLE_bytesOf, hseed,
    asI_nat (by omega), show (1 : Int) = ((1 : Nat) : Int) from rfl, subI_nat (by omega) (by omega),
    Out.ok_bind]
  simp only
  rw [shl32_small 10 (by omega) (by omega), orI_nat (by omega) (by omega), or_mul (k := 10) _ hf,
    asUI_nat (by omega)]
  generalize hs : Spec.field (buf.take 16) 13 10 + (n - 1) * 2 ^ 10 = seed at *
  have hs32 : seed < 2 ^ 13 := by omega
  have hh : partitionHash seed = (hash52 (UInt32.ofNat seed)).toNat := by
    rw [← partitionHash_eq, UInt32.toNat_ofNat', Nat.mod_eq_of_lt (by omega)]
  rw [hh]
  have hr32 : (hash52 (UInt32.ofNat seed)).toNat < 2 ^ 32 := UInt32.toNat_lt _
  generalize hR : (hash52 (UInt32.ofNat seed)).toNat = rnum at *
  obtain ⟨l, el, hl, hv, -⟩ := setLoop (α := Int) (n := 8)
    (f := fun i (seeds : List Int) => do
      let r ← shrU 32 rnum (i * 4)
      let v := r &&& 0xf
      let vv ← mulU 32 v v
      setIdx seeds i (asI 32 vv))
    (fun _ l => l) (fun i => i)
    (fun i => ((rnum / 2 ^ (4 * i) % 16 * (rnum / 2 ^ (4 * i) % 16) : Nat) : Int)) (List.replicate 8 0)
    (by intro i hi; simp; omega) (fun i j _ _ h => h)
    (by
      intro i hi l hl
      rw [List.length_replicate] at hl
      have hm : rnum / 2 ^ (4 * i) % 16 * (rnum / 2 ^ (4 * i) % 16) ≤ 15 * 15 :=
        Nat.mul_le_mul (by omega) (by omega)
      unfold shrU
      rw [if_pos (by omega), Out.ok_bind]
      simp only
      rw [and_15, shr_eq, Nat.mul_comm i 4, mulU_ok (by omega), Out.ok_bind, asI_nat (by omega),
        setIdx_ok (by omega)])
  rw [el, Out.ok_bind, andI_x2 (by omega), show ((1 : Nat) : Int) = 1 from rfl,
    andI_x1 (by omega)]
  generalize hshA : (if ((seed / 2 % 2 * 2 : Nat) : Int) ≠ 0 then 4 else 5) = shA
  generalize hshB : (if n = 3 then 6 else 5) = shB
  have hA : shA = if seed / 2 % 2 = 1 then 4 else 5 := by
    rw [← hshA]
    by_cases h : seed / 2 % 2 = 1
    · rw [if_pos (by omega), if_pos h]
    · rw [if_neg (by omega), if_neg h]
  generalize hp : (if seed % 2 = 1 then (shA, shB) else (shB, shA)) = pr
  rw [List.length_replicate] at hl
  obtain ⟨l2, el2, hl2, hv2, -⟩ := forRange_inv (n := 8) (s := l)
    (f := fun i (seeds : List Int) => do
      let k ← idx [shA, shB] (if ((seed % 2 : Nat) : Int) ≠ 0 then i % 2 else 1 - i % 2)
      let x ← idx seeds i
      setIdx seeds i (shr32 x k))
    (fun k s => s.length = 8 ∧ (∀ i, i < k → s[i]? = some (seedAt rnum pr.1 pr.2 i : Int)) ∧
      ∀ i, k ≤ i → i < 8 → s[i]? = l[i]?)
    ⟨hl, fun _ h => absurd h (Nat.not_lt_zero _), fun _ _ _ => rfl⟩
    (by
      rintro i hi s ⟨hs8, h1, h2⟩
      have hk : idx [shA, shB] (if ((seed % 2 : Nat) : Int) ≠ 0 then i % 2 else 1 - i % 2) =
          .ok (if i % 2 = 0 then pr.1 else pr.2) := by
        rw [← hp]
        rcases Nat.mod_two_eq_zero_or_one i with hi2 | hi2 <;>
          rcases Nat.mod_two_eq_zero_or_one seed with hs2 | hs2 <;> rw [hi2, hs2] <;> rfl
      have hx : s[i]? = some ((rnum / 2 ^ (4 * i) % 16 * (rnum / 2 ^ (4 * i) % 16) : Nat) : Int) := by
        rw [h2 i (Nat.le_refl _) hi]
        exact hv i hi
      rw [hk, Out.ok_bind, idx_of_some hx, Out.ok_bind, setIdx_ok (by omega), shr32_nat]
      refine ⟨_, rfl, by simp [hs8], ?_, ?_⟩
      · intro j hj
        by_cases h : j = i
        · subst h
          rw [List.getElem?_set_self (by omega)]
          rfl
        · rw [List.getElem?_set_ne (by omega), h1 j (by omega)]
      · intro j hj hj'
        rw [List.getElem?_set_ne (by omega), h2 j (by omega) hj'])
  rw [el2, Out.ok_bind, mulU_ok (by omega), Out.ok_bind]
  have hg : forRange bh (fun t st =>
      forRange bw (fun s (st : Nat × List Nat) => do
        let x := if bw * bh < 31 then asU 64 (s <<< 1) else s
        let y := if bw * bh < 31 then asU 64 (t <<< 1) else t
        let r ← partitionOf l2 rnum n x y
        let partition ← setIdx st.2 st.1 r
        pure (st.1 + 1, partition)) st) ((0 : Nat), List.replicate 144 0) =
      forRange (bh * bw) (fun k (st : Nat × List Nat) => do
        let x := if bw * bh < 31 then asU 64 ((k % bw) <<< 1) else k % bw
        let y := if bw * bh < 31 then asU 64 ((k / bw) <<< 1) else k / bw
        let r ← partitionOf l2 rnum n x y
        let partition ← setIdx st.2 st.1 r
        pure (st.1 + 1, partition)) ((0 : Nat), List.replicate 144 0) := by
    rw [← forRange_nested]
    apply forRange_congr
    intro t ht st
    apply forRange_congr
    intro s hs st
    have e1 : (t * bw + s) / bw = t := by
      rw [Nat.mul_comm, Nat.mul_add_div (by omega), Nat.div_eq_of_lt hs, Nat.add_zero]
    have e2 : (t * bw + s) % bw = s := by
      rw [Nat.mul_comm, Nat.mul_add_mod, Nat.mod_eq_of_lt hs]
    simp only [e1, e2]
  rw [hg]
  obtain ⟨l3, el3, hl3, hv3, -⟩ := setLoop (α := Nat) (n := bh * bw)
    (f := fun k (st : Nat × List Nat) => do
        let x := if bw * bh < 31 then asU 64 ((k % bw) <<< 1) else k % bw
        let y := if bw * bh < 31 then asU 64 ((k / bw) <<< 1) else k / bw
        let r ← partitionOf l2 rnum n x y
        let partition ← setIdx st.2 st.1 r
        pure (st.1 + 1, partition))
    (fun k l => (k, l)) (fun i => i)
    (fun i => partitionAt (buf.take 16) bw bh (i % bw) (i / bw)) (List.replicate 144 0)
    (by intro i hi; rw [Nat.mul_comm] at hi; simp; omega) (fun i j _ _ h => h)
    (by
      intro i hi l hl
      rw [Nat.mul_comm] at hi
      rw [List.length_replicate] at hl
      simp only
      have hx : i % bw ≤ i := Nat.mod_le _ _
      have hy : i / bw ≤ i := Nat.div_le_self _ _
      have ex : (if bw * bh < 31 then asU 64 ((i % bw) <<< 1) else i % bw) =
          if bw * bh < 31 then 2 * (i % bw) else i % bw := by
        unfold asU
        rw [shl_eq]
        split <;> omega
      have ey : (if bw * bh < 31 then asU 64 ((i / bw) <<< 1) else i / bw) =
          if bw * bh < 31 then 2 * (i / bw) else i / bw := by
        unfold asU
        rw [shl_eq]
        split <;> omega
      rw [ex, ey, partitionOf_ok hv2 (seedAt_le _ _ _) hr32 (by split <;> omega) (by split <;> omega),
        Out.ok_bind, setIdx_ok (by omega), Out.ok_bind]
      refine congrArg (fun r => Out.ok (i + 1, l.set i r)) ?_
      unfold partitionAt
      rw [hn, if_neg hP]
      unfold Spec.Astc.selectPartition
      simp only [decide_eq_true_eq]
      rw [show Spec.field (buf.take 16) 13 10 + (n - 1) * 1024 = seed from hs, hR, ← hA, hshB, hp]
      simp only [seedAt, Nat.reduceMod, Nat.reduceMul])
  rw [el3, Out.ok_bind]
  exact ⟨l3, rfl, fun i hi => hv3 i (by rw [Nat.mul_comm]; exact hi)⟩

end Verif.Proofs.Astc
