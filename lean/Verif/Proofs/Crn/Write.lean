import Verif.Spec.CrnFile
import Verif.Proofs.Crn.Receive

/-!
# Writing Crunch streams

`Writes r a bits`: the reader `r` gets the value `a` from `bits`, whatever follows them.
-/

namespace Verif.Proofs.Crn.Enc

open Verif Verif.Spec Verif.Spec.Crn Verif.Proofs.Crn

def Writes {α : Type} (r : Reader α) (a : α) (bits : List Bool) : Prop :=
  ∀ rest, r (bits ++ rest) = some (a, rest)

theorem Writes.pure {α : Type} (a : α) : Writes (Pure.pure a : Reader α) a [] := fun _ => rfl

theorem Writes.bind {α β : Type} {r : Reader α} {f : α → Reader β} {a : α} {b : β} {l m : List Bool}
    (h : Writes r a l) (h' : Writes (f a) b m) : Writes (r >>= f) b (l ++ m) := fun rest => by
  rw [reader_bind]
  exact ⟨a, m ++ rest, by rw [List.append_assoc]; exact h _, h' rest⟩

theorem Writes.map {α β : Type} {r : Reader α} {f : α → β} {a : α} {l : List Bool}
    (h : Writes r a l) : Writes (r >>= fun a => Pure.pure (f a)) (f a) l := by
  have := h.bind (f := fun a => Pure.pure (f a)) (Writes.pure (f a))
  rwa [List.append_nil] at this

theorem Writes.require {β : Type} {p : Prop} [Decidable p] {f : Unit → Reader β} {b : β} {l : List Bool}
    (hp : p) (h : Writes (f ()) b l) : Writes (Crn.require p >>= f) b l := fun rest => by
  rw [require_bind]; exact ⟨hp, h rest⟩

theorem Writes.number {n v : Nat} (h : v < 2 ^ n) : Writes (Crn.number n) v (msbBits n v) := fun rest => by
  have hl : (msbBits n v).length = n := msbBits_length n v
  unfold Crn.number
  rw [if_pos (by rw [List.length_append, hl]; omega), List.take_left' hl, List.drop_left' hl,
    ofBits_msbBits h]

theorem Writes.symbol {code : List Nat} (hl : LensOk code) (hk : usedSpace code 16 ≤ 2 ^ 16) {s : Nat}
    (hs : 0 < lenOf code s) : Writes (Crn.symbol code) s (codeBits code s) := fun rest => by
  have hc := kraft_hasCode hl hk hs
  show readSymbol code _ = _
  unfold readSymbol
  have hmem : s ∈ List.range code.length := by simpa using lenOf_lt hs
  have hp : HasCode code s ∧ codeBits code s <+: codeBits code s ++ rest := ⟨hc, ⟨rest, rfl⟩⟩
  split
  · rename_i t ht
    have hpt := List.find?_some ht
    simp only [decide_eq_true_eq] at hpt
    have e : t = s := by
      rcases List.prefix_or_prefix_of_prefix hpt.2 hp.2 with h | h
      · exact prefix_free hl hpt.1 hc h
      · exact (prefix_free hl hc hpt.1 h).symm
    subst e
    have hlen : (codeBits code t).length = lenOf code t := by simp [codeBits]
    rw [List.drop_left' hlen]
  · rename_i ht
    have := List.find?_eq_none.mp ht s hmem
    simp only [decide_eq_true_eq] at this
    exact absurd hp this

/-! ## Uniform codes -/

/-- The code with `2 ^ k` symbols of `k` bits. -/
def uniform (k : Nat) : List Nat := List.replicate (2 ^ k) k

section
variable {k : Nat}

theorem uniform_length : (uniform k).length = 2 ^ k := List.length_replicate

theorem uniform_lenOf {s : Nat} (h : s < 2 ^ k) : lenOf (uniform k) s = k := by
  unfold lenOf uniform
  rw [List.getD_eq_getElem?_getD, List.getElem?_replicate, if_pos h]; rfl

theorem uniform_ok (h : k ≤ 13) : LensOk (uniform k) where
  pos := by rw [uniform_length]; exact Nat.two_pow_pos k
  len := by rw [uniform_length]; exact Nat.pow_le_pow_right (by omega) h
  le16 := fun l hl => by rw [(List.mem_replicate.mp hl).2]; omega

theorem uniform_space (h1 : 1 ≤ k) (h : k ≤ 13) : usedSpace (uniform k) 16 ≤ 2 ^ 16 := by
  unfold usedSpace uniform
  rw [List.map_replicate, List.sum_replicate_nat, if_pos (by omega), ← Nat.pow_add]
  rw [show k + (16 - k) = 16 by omega]
  exact Nat.le_refl _

theorem Writes.uniform (h1 : 1 ≤ k) (h : k ≤ 13) {s : Nat} (hs : s < 2 ^ k) :
    Writes (Crn.symbol (Enc.uniform k)) s (codeBits (Enc.uniform k) s) :=
  Writes.symbol (uniform_ok h) (uniform_space h1 h) (by rw [uniform_lenOf hs]; omega)

theorem uniform_bits {s : Nat} (hs : s < 2 ^ k) : (codeBits (uniform k) s).length = k := by
  unfold codeBits
  rw [msbBits_length, uniform_lenOf hs]

end

theorem Writes.many {α : Type} {r : Reader α} {bits : α → List Bool} (l : List α)
    (h : ∀ a ∈ l, Writes r a (bits a)) : Writes (Crn.many r l.length) l (l.flatMap bits) := by
  induction l with
  | nil => exact Writes.pure _
  | cons a l ih =>
    rw [List.flatMap_cons]
    exact (h a (by simp)).bind (ih (fun b hb => h b (by simp [hb]))).map

/-- The lengths of the code for the lengths: only the length `k` is used. -/
def lengthLens (k : Nat) : List Nat := lengthOrder.map fun s => if s = k then 1 else 0

/-- The code for the lengths. -/
def oneLength (k : Nat) : List Nat := lengthCode (lengthLens k)

theorem oneLength_table : ∀ k : Fin 14,
    usedSpace (oneLength k) 16 ≤ 2 ^ 16 ∧ (oneLength k).length = 21 ∧ (∀ l ∈ oneLength k, l ≤ 16) ∧
    lenOf (oneLength k) k = 1 ∧ (∀ l ∈ lengthLens k, l < 2 ^ 3) := by
  decide +kernel

theorem Writes.lengthRuns {k : Nat} (hk : k ≤ 13) (total : Nat) : ∀ n m, m + n = total →
    Writes (Crn.lengthRuns (oneLength k) total n (List.replicate m k)) (List.replicate total k)
      ((List.replicate n ()).flatMap fun _ => codeBits (oneLength k) k) := by
  intro n
  induction n with
  | zero =>
    intro m h
    have e : m = total := by omega
    subst e
    exact Writes.require (List.length_replicate) (Writes.pure _)
  | succ n ih =>
    intro m h
    obtain ⟨h1, h2, h3, h4, -⟩ := oneLength_table ⟨k, by omega⟩
    rw [List.replicate_succ, List.flatMap_cons]
    unfold Crn.lengthRuns
    rw [if_neg (by rw [List.length_replicate]; omega)]
    have hrun : Writes (lengthRun (oneLength k) (List.replicate m k)) [k] (codeBits (oneLength k) k) := by
      unfold lengthRun
      have := (Writes.symbol ⟨by rw [h2]; omega, by rw [h2]; omega, h3⟩ h1 (s := k)
        (by rw [h4]; omega)).bind (f := fun s => if s ≤ 16 then Pure.pure [s]
          else if s = 17 then do
            let n ← Crn.number 3
            Pure.pure (List.replicate (n + 3) 0)
          else if s = 18 then do
            let n ← Crn.number 7
            Pure.pure (List.replicate (n + 11) 0)
          else do
            let last := (List.replicate m k).getLastD 0
            Crn.require (last ≠ 0)
            let n ← (if s = 19 then Crn.number 2 else Crn.number 6)
            Pure.pure (List.replicate (n + if s = 19 then 3 else 7) last)) (b := [k]) (m := []) (by
              rw [if_pos (by omega)]; exact Writes.pure _)
      rwa [List.append_nil] at this
    refine hrun.bind (Writes.require ?_ ?_)
    · rw [List.length_replicate]; simp; omega
    · have e : List.replicate m k ++ [k] = List.replicate (m + 1) k := by
        rw [List.replicate_succ']
      rw [e]
      exact ih (m + 1) (by omega)

/-- The bits of the uniform code with `k` bits. -/
def codeTable (k : Nat) : List Bool :=
  msbBits 14 (2 ^ k) ++ (msbBits 5 21 ++ ((lengthLens k).flatMap (msbBits 3) ++
    ((List.replicate (2 ^ k) ()).flatMap fun _ => codeBits (oneLength k) k)))

theorem Writes.prefixCode {k : Nat} (h1 : 1 ≤ k) (hk : k ≤ 13) :
    Writes Crn.prefixCode (Enc.uniform k) (codeTable k) := by
  obtain ⟨t1, -, -, -, t5⟩ := oneLength_table ⟨k, by omega⟩
  have hp : 2 ^ k ≤ 2 ^ 13 := Nat.pow_le_pow_right (by omega) hk
  have hp0 := Nat.two_pow_pos k
  unfold Crn.prefixCode codeTable
  refine (Writes.number (by omega)).bind (Writes.require ⟨by omega, by omega⟩ ?_)
  refine (Writes.number (by omega)).bind (Writes.require ⟨by omega, by omega⟩ ?_)
  have hm := Writes.many (r := Crn.number 3) (bits := msbBits 3) (lengthLens k)
    (fun a ha => Writes.number (t5 a ha))
  have e21 : (lengthLens k).length = 21 := by unfold lengthLens; rw [List.length_map]; rfl
  rw [e21] at hm
  refine hm.bind (Writes.require t1 ?_)
  have hr := Writes.lengthRuns hk (2 ^ k) (2 ^ k) 0 (by omega)
  have := hr.bind (f := fun lens => do
    Crn.require (usedSpace lens 16 ≤ 2 ^ 16)
    Pure.pure lens) (b := Enc.uniform k) (m := []) (Writes.require (uniform_space h1 hk) (Writes.pure _))
  rwa [List.append_nil] at this

theorem codeTable_length {k : Nat} (hk : k ≤ 13) : (codeTable k).length = 82 + 2 ^ k := by
  obtain ⟨-, -, -, t4, -⟩ := oneLength_table ⟨k, by omega⟩
  have e1 : (codeBits (oneLength k) k).length = 1 := by
    unfold codeBits; rw [msbBits_length, t4]
  have e2 : ((List.replicate (2 ^ k) ()).flatMap fun _ => codeBits (oneLength k) k).length = 2 ^ k := by
    simp [List.length_flatMap, e1, List.sum_replicate_nat]
  have e3 : ((lengthLens k).flatMap (msbBits 3)).length = 63 := by
    simp [List.length_flatMap, lengthLens, lengthOrder]
  unfold codeTable
  simp only [List.length_append, msbBits_length, e2, e3]
  omega

/-! ## Sequences -/

theorem Writes.scan {α : Type} {r : α → Reader α} {st : Nat → α} {bits : Nat → List Bool} :
    ∀ n m, (∀ i, m ≤ i → i < m + n → Writes (r (st i)) (st (i + 1)) (bits i)) →
    Writes (Crn.scan r n (st m)) ((List.range n).map fun i => st (m + i + 1))
      ((List.range n).flatMap fun i => bits (m + i)) := by
  intro n
  induction n with
  | zero => intro m _; exact Writes.pure _
  | succ n ih =>
    intro m h
    rw [List.range_succ_eq_map, List.flatMap_cons, List.map_cons]
    have h2 := ih (m + 1) (fun i h1 h2 => h i (by omega) (by omega))
    have e1 : (List.range n).map (fun i => st (m + 1 + i + 1)) =
        ((List.range n).map Nat.succ).map (fun i => st (m + i + 1)) := by
      rw [List.map_map]; apply List.map_congr_left; intro i _
      show st (m + 1 + i + 1) = st (m + (i + 1) + 1); congr 1; omega
    have e2 : (List.range n).flatMap (fun i => bits (m + 1 + i)) =
        ((List.range n).map Nat.succ).flatMap (fun i => bits (m + i)) := by
      rw [List.flatMap_map]; congr 1; funext i
      show bits (m + 1 + i) = bits (m + (i + 1)); congr 1; omega
    rw [← e1, ← e2]
    exact (h m (by omega) (by omega)).bind h2.map

theorem Writes.forPlanes {α β : Type} {r : Plane → α → Reader β} : ∀ (ps : List Plane) (A : Nat → α)
    (B : Nat → β) (bits : Nat → List Bool),
    (∀ i p, ps[i]? = some p → Writes (r p (A i)) (B i) (bits i)) →
    Writes (Crn.forPlanes r ps ((List.range ps.length).map A)) ((List.range ps.length).map B)
      ((List.range ps.length).flatMap bits) := by
  intro ps
  induction ps with
  | nil => intro A B bits _; exact Writes.pure _
  | cons p ps ih =>
    intro A B bits h
    rw [List.length_cons, List.range_succ_eq_map, List.flatMap_cons, List.map_cons, List.map_cons,
      List.map_map, List.map_map, List.flatMap_map]
    exact (h 0 p rfl).bind (ih (A ∘ Nat.succ) (B ∘ Nat.succ) (fun i => bits (i + 1))
      (fun i q hq => h (i + 1) q hq)).map

/-! ## Bytes -/

/-- Bits as `n` bytes, filled up with zeros. -/
def pack : Nat → List Bool → List UInt8
  | 0, _ => []
  | n + 1, bits => UInt8.ofNat (ofBits ((bits ++ List.replicate 8 false).take 8)) :: pack n (bits.drop 8)

theorem pack_length (n : Nat) (bits : List Bool) : (pack n bits).length = n := by
  induction n generalizing bits with
  | zero => rfl
  | succ n ih => simp [pack, ih]

theorem byteBits_pack (n : Nat) (bits : List Bool) (h : bits.length ≤ 8 * n) :
    byteBits (pack n bits) = bits ++ List.replicate (8 * n - bits.length) false := by
  induction n generalizing bits with
  | zero =>
    have : bits = [] := List.eq_nil_of_length_eq_zero (by omega)
    subst this; rfl
  | succ n ih =>
    have hl : ((bits ++ List.replicate 8 false).take 8).length = 8 := by simp
    have hv := ofBits_lt ((bits ++ List.replicate 8 false).take 8)
    rw [hl] at hv
    unfold byteBits at ih ⊢
    unfold pack
    rw [List.flatMap_cons, ih _ (by rw [List.length_drop]; omega), UInt8.toNat_ofNat', Nat.mod_eq_of_lt hv]
    have e := msbBits_ofBits ((bits ++ List.replicate 8 false).take 8)
    rw [hl] at e
    rw [e, List.length_drop]
    by_cases h8 : 8 ≤ bits.length
    · rw [List.take_append_of_le_length h8, ← List.append_assoc, List.take_append_drop]
      congr 2; omega
    · rw [List.take_append, List.take_of_length_le (by omega), List.take_replicate,
        List.drop_of_length_le (by omega), List.nil_append, List.append_assoc,
        List.replicate_append_replicate]
      congr 2; omega

/-- The bytes of a section. -/
def packed (bits : List Bool) : List UInt8 := pack ((bits.length + 7) / 8) bits

theorem packed_length (bits : List Bool) : (packed bits).length = (bits.length + 7) / 8 := pack_length _ _

theorem readSection_ok {α : Type} {r : Reader α} {a : α} {bits : List Bool} (h : Writes r a bits)
    (hpos : 0 < bits.length) {file pre post : List UInt8} (hf : file = pre ++ packed bits ++ post)
    {ofs size : Nat} (ho : ofs = pre.length) (hs : size = (packed bits).length) :
    readSection file ofs size r = some a := by
  have hb : sectionBits file ofs size =
      some (bits ++ List.replicate (8 * ((bits.length + 7) / 8) - bits.length) false) := by
    unfold sectionBits
    subst hf ho hs
    rw [if_pos ⟨by rw [packed_length]; omega, by simp only [List.length_append]; omega⟩, List.append_assoc,
      List.drop_left, List.take_left]
    rw [packed, byteBits_pack _ _ (by omega)]
  unfold readSection
  rw [hb]
  show (r _ >>= fun p => Pure.pure p.1) = _
  rw [h]; rfl

end Verif.Proofs.Crn.Enc
