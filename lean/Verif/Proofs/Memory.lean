import Verif.Model.Memory
import Verif.Proofs.Image
import Verif.Proofs.Loops

/-!
# The two models of the decoders agree, and what the decoders write
-/

namespace Verif.Proofs

open Verif Verif.Model

/-! ## Agreement -/

/-- The run `x` ends like `y`, where `t a image` is what `y` returns for the value `a` and the final
contents `image`. -/
def Same {α β : Type} (t : α → List UInt32 → β) (x : Mem × Out α) (y : Out β) : Prop :=
  match x with
  | (m, .ok a) => y = .ok (t a m.image)
  | (_, .panic) => y = .panic

theorem Same.bind {α β α' β' : Type} {t : α → List UInt32 → β} {t' : α' → List UInt32 → β'}
    {x : Run α} {m : Mem} {y : Out β} {f : α → Run α'} {g : β → Out β'} (hx : Same t (x m) y)
    (hf : ∀ a m, Same t' (f a m) (g (t a m.image))) : Same t' ((x >>= f) m) (y >>= g) := by
  show Same t' (Run.bind x f m) (y >>= g)
  unfold Run.bind
  match hm : x m with
  | (m1, .ok a) =>
    rw [hm] at hx
    rw [show y = .ok (t a m1.image) from hx]
    exact hf a m1
  | (m1, .panic) =>
    rw [hm] at hx
    rw [show y = .panic from hx]
    rfl

theorem Same.lift {α α' β' : Type} {t' : α' → List UInt32 → β'} {o : Out α} {m : Mem}
    {f : α → Run α'} {g : α → Out β'} (hf : ∀ a, Same t' (f a m) (g a)) :
    Same t' ((Run.lift o >>= f) m) (o >>= g) := by
  cases o with
  | ok a => exact hf a
  | panic => exact rfl

theorem Same.pure {α β : Type} {t : α → List UInt32 → β} {a : α} {m : Mem} {b : β}
    (h : b = t a m.image) : Same t ((Pure.pure a : Run α) m) (Pure.pure b) := by
  subst h; rfl

theorem Same.size {α' β' : Type} {t' : α' → List UInt32 → β'} {m : Mem} {f : Nat → Run α'}
    {y : Out β'} (h : Same t' (f m.image.length m) y) : Same t' ((Run.size >>= f) m) y := h

theorem Same.forRange {σ τ : Type} {t : σ → List UInt32 → τ} {F : Nat → σ → Run σ}
    {f : Nat → τ → Out τ} (h : ∀ i s m, Same t (F i s m) (f i (t s m.image))) (n : Nat) (s : σ)
    (m : Mem) : Same t (Run.forRange n F s m) (Verif.forRange n f (t s m.image)) := by
  induction n with
  | zero => exact rfl
  | succ n ih => exact Same.bind (y := Verif.forRange n f (t s m.image)) ih (h n)

theorem Same.write {m : Mem} {a b : Nat} {src : List UInt32} :
    Same (fun _ image => image) (Run.write a b src m) (copyFromSlice m.image a b src) := by
  unfold Run.write Same
  cases copyFromSlice m.image a b src <;> rfl

variable [Build]

theorem copyBlockBufferR_same {bx by' w h bw bh : Nat} {buffer : List UInt32} {m : Mem} :
    Same (fun _ image => image) (copyBlockBufferR bx by' w h bw bh buffer m)
      (copyBlockBuffer bx by' w h bw bh buffer m.image) := by
  unfold copyBlockBufferR copyBlockBuffer
  refine Same.lift fun x => Same.lift fun bx1 => Same.lift fun right => Same.lift fun cw =>
    Same.lift fun y0 => Same.lift fun by1 => Same.lift fun bottom => Same.lift fun ch =>
    Same.lift fun yEnd => ?_
  refine Same.bind (t := fun off image => ((off, image) : Nat × List UInt32))
    (Same.forRange (t := fun off image => ((off, image) : Nat × List UInt32)) ?_ _ _ _)
    (fun _ _ => rfl)
  intro i off m
  refine Same.lift fun row => Same.lift fun imageOffset => Same.lift fun imageEnd =>
    Same.lift fun bufferEnd => Same.lift fun src => Same.bind Same.write fun _ m => ?_
  cases addU 64 off bw <;> rfl

/-- The loop over the blocks. -/
theorem blockLoop_same {f : BlockFn} {bw bh raw w h nbx nby : Nat} {data : List UInt8}
    {s : List UInt32 × Nat} {m : Mem} :
    Same (fun (s : List UInt32 × Nat) image => ((s.1, s.2, image) : List UInt32 × Nat × List UInt32))
      (Run.forRange nby (fun by' s =>
        Run.forRange nbx (fun bx (s : List UInt32 × Nat) => do
          let block ← Run.lift (sliceFrom data s.2)
          let buffer ← Run.lift (f block s.1)
          let _ ← copyBlockBufferR bx by' w h bw bh buffer
          let dataOffset ← Run.lift (addU 64 s.2 raw)
          pure (buffer, dataOffset)) s) s m)
      (forRange nby (fun by' s =>
        forRange nbx (fun bx (s : List UInt32 × Nat × List UInt32) => do
          let (buffer, dataOffset, image) := s
          let block ← sliceFrom data dataOffset
          let buffer ← f block buffer
          let image ← copyBlockBuffer bx by' w h bw bh buffer image
          let dataOffset ← addU 64 dataOffset raw
          pure (buffer, dataOffset, image)) s) (s.1, s.2, m.image)) := by
  refine Same.forRange (fun by' s m => Same.forRange (fun bx s m => ?_) _ _ _) _ _ _
  exact Same.lift fun block => Same.lift fun buffer => Same.bind copyBlockBufferR_same fun _ m =>
    Same.lift fun off => Same.pure rfl

theorem blockDecoderR_same {bw bh raw : Nat} {f : BlockFn} {data : List UInt8} {w h : Nat}
    {m : Mem} : Same (fun r image => (r, image)) (blockDecoderR bw bh raw f data w h m)
      (blockDecoder bw bh raw f data w h m.image) := by
  unfold blockDecoderR blockDecoder
  refine Same.lift fun nbx => Same.lift fun nby => Same.lift fun blocks => Same.lift fun need => ?_
  by_cases h1 : data.length < need
  · rw [if_pos h1, if_pos h1]; exact Same.pure rfl
  · rw [if_neg h1, if_neg h1]
    refine Same.lift fun pixels => Same.size ?_
    by_cases h2 : m.image.length < pixels
    · rw [if_pos h2, if_pos h2]; exact Same.pure rfl
    · rw [if_neg h2, if_neg h2]
      exact Same.bind blockLoop_same fun _ _ => Same.pure rfl

theorem decodeAstcR_same {data : List UInt8} {w h bw bh : Nat} {m : Mem} :
    Same (fun r image => (r, image)) (decodeAstcR data w h bw bh m)
      (decodeAstc data w h bw bh m.image) := by
  unfold decodeAstcR decodeAstc
  refine Same.lift fun nbx => Same.lift fun nby => Same.lift fun blocks => Same.lift fun need => ?_
  by_cases h1 : data.length < need
  · rw [if_pos h1, if_pos h1]; exact Same.pure rfl
  · rw [if_neg h1, if_neg h1]
    refine Same.lift fun pixels => Same.size ?_
    by_cases h2 : m.image.length < pixels
    · rw [if_pos h2, if_pos h2]; exact Same.pure rfl
    · rw [if_neg h2, if_neg h2]
      refine Same.lift fun size => ?_
      by_cases h3 : size > 144
      · rw [if_pos h3, if_pos h3]; exact Same.pure rfl
      · rw [if_neg h3, if_neg h3]
        exact Same.bind (blockLoop_same (f := fun block => decodeAstcBlock block bw bh))
          fun _ _ => Same.pure rfl

theorem decodePvrtcR_same {is2 : Bool} {data : List UInt8} {w h : Nat} {m : Mem} :
    Same (fun r image => (r, image)) (decodePvrtcR is2 data w h m)
      (decodePvrtc data w h m.image is2) := by
  unfold decodePvrtcR decodePvrtc
  refine Same.lift fun nbx => Same.lift fun nby => Same.lift fun n => Same.lift fun need => ?_
  by_cases h1 : data.length < need
  · rw [if_pos h1, if_pos h1]; exact Same.pure rfl
  · rw [if_neg h1, if_neg h1]
    refine Same.lift fun pixels => Same.size ?_
    by_cases h2 : m.image.length < pixels
    · rw [if_pos h2, if_pos h2]; exact Same.pure rfl
    · rw [if_neg h2, if_neg h2]
      refine Same.lift fun badX => Same.lift fun bad => ?_
      by_cases h3 : bad = true
      · rw [if_pos h3, if_pos h3]; exact Same.pure rfl
      · rw [if_neg h3, if_neg h3]
        refine Same.lift fun infos => Same.bind
          (t := fun (s : List PvInfo × List UInt32) image =>
            ((s.1, s.2, image) : List PvInfo × List UInt32 × List UInt32))
          (Same.forRange (t := fun (s : List PvInfo × List UInt32) image =>
            ((s.1, s.2, image) : List PvInfo × List UInt32 × List UInt32)) (fun by' s m => ?_) _ _ _)
          fun _ _ => Same.pure rfl
        refine Same.lift fun posY => Same.forRange (fun bx s m => ?_) _ _ _
        exact Same.lift fun posX => Same.lift fun loc => Same.lift fun mi => Same.lift fun m8 =>
          Same.lift fun _ => Same.lift fun buffer => Same.bind copyBlockBufferR_same fun _ m =>
          Same.pure rfl

theorem decodeCrunchR_same {data : List UInt8} {w h : Nat} {m : Mem} :
    Same (fun r image => (r, image)) (decodeCrunchR data w h m)
      (Crn.decodeCrunch data w h m.image) := by
  unfold decodeCrunchR Crn.decodeCrunch
  cases Crn.crunchUnpackLevel data (asU 32 data.length) 0 with
  | panic => exact rfl
  | fail msg => exact rfl
  | ok hd =>
    simp only
    cases hd.format <;> first | exact blockDecoderR_same | exact rfl

theorem decodeUnityCrunchR_same {data : List UInt8} {w h : Nat} {m : Mem} :
    Same (fun r image => (r, image)) (decodeUnityCrunchR data w h m)
      (Crn.Unity.decodeUnityCrunch data w h m.image) := by
  unfold decodeUnityCrunchR Crn.Unity.decodeUnityCrunch
  cases Crn.Unity.unityCrunchUnpackLevel data (asU 32 data.length) 0 with
  | panic => exact rfl
  | fail msg => exact rfl
  | ok hd =>
    simp only
    cases hd.format <;> first | exact blockDecoderR_same | exact rfl

/-! ## What is written -/

/-- The program writes only elements before `n`, and leaves the others and the length alone. -/
def Inside {α : Type} (n : Nat) (x : Run α) : Prop :=
  ∀ m : Mem, m.image.length < 2 ^ 61 → (∀ r ∈ m.writes, r.2 ≤ n) →
    (∀ r ∈ (x m).1.writes, r.2 ≤ n) ∧ (x m).1.image.length = m.image.length ∧
      ∀ i, n ≤ i → (x m).1.image[i]? = m.image[i]?

omit [Build] in
theorem Inside.bind {α β : Type} {n : Nat} {x : Run α} {f : α → Run β} (hx : Inside n x)
    (hf : ∀ a, Inside n (f a)) : Inside n (x >>= f) := by
  intro m hl hm
  show (∀ r ∈ (Run.bind x f m).1.writes, r.2 ≤ n) ∧ (Run.bind x f m).1.image.length = _ ∧
    ∀ i, n ≤ i → (Run.bind x f m).1.image[i]? = _
  unfold Run.bind
  have h1 := hx m hl hm
  match e : x m with
  | (m1, .ok a) =>
    rw [e] at h1
    obtain ⟨g1, g2, g3⟩ := h1
    obtain ⟨k1, k2, k3⟩ := hf a m1 (by rw [g2]; exact hl) g1
    exact ⟨k1, k2.trans g2, fun i hi => (k3 i hi).trans (g3 i hi)⟩
  | (m1, .panic) => rw [e] at h1; exact h1

omit [Build] in
theorem Inside.nothing {α : Type} {n : Nat} {o : Out α} : Inside n (Run.lift o) :=
  fun _ _ hm => ⟨hm, rfl, fun _ _ => rfl⟩

omit [Build] in
theorem Inside.lift {α β : Type} {n : Nat} {o : Out α} {f : α → Run β}
    (hf : ∀ a, o = .ok a → Inside n (f a)) : Inside n (Run.lift o >>= f) := by
  cases o with
  | ok a => exact hf a rfl
  | panic => exact fun _ _ hm => ⟨hm, rfl, fun _ _ => rfl⟩

omit [Build] in
theorem Inside.pure {α : Type} {n : Nat} {a : α} : Inside n (Pure.pure a : Run α) :=
  fun _ _ hm => ⟨hm, rfl, fun _ _ => rfl⟩

omit [Build] in
theorem Inside.size {β : Type} {n : Nat} {f : Nat → Run β}
    (hf : ∀ k, k < 2 ^ 61 → Inside n (f k)) : Inside n (Run.size >>= f) :=
  fun m hl hm => hf _ hl m hl hm

omit [Build] in
theorem Inside.forRange {σ : Type} {k n : Nat} {f : Nat → σ → Run σ} {s : σ}
    (h : ∀ i, i < k → ∀ s, Inside n (f i s)) : Inside n (Run.forRange k f s) := by
  induction k with
  | zero => exact Inside.pure
  | succ k ih => exact Inside.bind (ih fun i hi => h i (by omega)) (h k (by omega))

omit [Build] in
theorem Inside.write {n a b : Nat} {src : List UInt32} (h : b ≤ n) :
    Inside n (Run.write a b src) := by
  intro m hl hm
  unfold Run.write copyFromSlice
  split
  · rename_i im e
    split at e
    · rename_i hc
      rw [Out.ok.injEq] at e
      subst e
      refine ⟨?_, ?_, ?_⟩
      · intro r hr
        rcases List.mem_append.mp hr with hr | hr
        · exact hm r hr
        · rw [List.mem_singleton.mp hr]; exact h
      · simp only [List.length_append, List.length_take, List.length_drop]; omega
      · intro i hi
        show (m.image.take a ++ src ++ m.image.drop b)[i]? = m.image[i]?
        rw [getElem?_splice (by omega) (by omega) (by omega), if_neg (by omega), if_neg (by omega)]
    · cases e
  · exact ⟨hm, rfl, fun _ _ => rfl⟩

/-- A block inside the image is written to elements of the image. -/
theorem copyBlockBufferR_inside {bx by' w h bw bh : Nat} {buffer : List UInt32}
    (hw : w < 2 ^ 61) (hh : h < 2 ^ 61) (hwh : w * h < 2 ^ 61) (hx : bw * bx < w)
    (hy : by' * bh < h) (hbw : bw < 2 ^ 64) (hbh : bh < 2 ^ 64) (hbx : bx < 2 ^ 61)
    (hby : by' < 2 ^ 61) : Inside (w * h) (copyBlockBufferR bx by' w h bw bh buffer) := by
  have h1 : bw * (bx + 1) < 2 ^ 64 := by
    rw [Nat.mul_add, Nat.mul_one]
    rcases Nat.eq_zero_or_pos bx with rfl | hp
    · omega
    · have := Nat.le_mul_of_pos_right bw hp; omega
  have h2 : bh * (by' + 1) < 2 ^ 64 := by
    rw [Nat.mul_add, Nat.mul_one, Nat.mul_comm bh]
    rcases Nat.eq_zero_or_pos by' with rfl | hp
    · omega
    · have := Nat.le_mul_of_pos_left bh hp; omega
  have e1 : bw * (bx + 1) = bw * bx + bw := by rw [Nat.mul_add, Nat.mul_one]
  have e2 : bh * (by' + 1) = by' * bh + bh := by rw [Nat.mul_add, Nat.mul_one, Nat.mul_comm]
  unfold copyBlockBufferR
  rw [mulU_ok (by omega : bw * bx < 2 ^ 64), addU_ok (by omega : bx + 1 < 2 ^ 64),
    mulU_ok (by omega : by' * bh < 2 ^ 64), addU_ok (by omega : by' + 1 < 2 ^ 64)]
  refine Inside.lift fun x ex => Inside.lift fun bx1 ebx => Inside.lift fun right er =>
    Inside.lift fun cw ecw => Inside.lift fun y0 ey => Inside.lift fun by1 eby =>
    Inside.lift fun bottom eb => Inside.lift fun ch ech => Inside.lift fun yEnd eye => ?_
  rw [Out.ok.injEq] at ex ebx ey eby
  subst ex ebx ey eby
  rw [mulU_ok h1, Out.ok.injEq] at er
  rw [mulU_ok h2, Out.ok.injEq] at eb
  subst er eb
  have hcw : bw * bx + cw ≤ w := by
    split at ecw
    · rw [subU_ok (by omega), Out.ok.injEq] at ecw; omega
    · rw [Out.pure_eq, Out.ok.injEq] at ecw; omega
  have hch : by' * bh + ch ≤ h := by
    split at ech
    · rw [subU_ok (by omega), Out.ok.injEq] at ech; omega
    · rw [Out.pure_eq, Out.ok.injEq] at ech; omega
  rw [addU_ok (by omega), Out.ok.injEq] at eye
  subst eye
  rw [Nat.add_sub_cancel_left]
  refine Inside.bind (Inside.forRange fun i hi off => ?_) fun _ => Inside.pure
  have hrow : (by' * bh + i) * w + w ≤ w * h := by
    have := Nat.mul_le_mul_right w (show by' * bh + i + 1 ≤ h by omega)
    rw [Nat.add_mul, Nat.one_mul] at this
    rw [Nat.mul_comm w h]; exact this
  rw [mulU_ok (by omega)]
  refine Inside.lift fun row e3 => ?_
  rw [Out.ok.injEq] at e3
  subst e3
  rw [addU_ok (by omega)]
  refine Inside.lift fun io e4 => ?_
  rw [Out.ok.injEq] at e4
  subst e4
  rw [addU_ok (by omega)]
  refine Inside.lift fun ie e5 => ?_
  rw [Out.ok.injEq] at e5
  subst e5
  exact Inside.lift fun _ _ => Inside.lift fun _ _ =>
    Inside.bind (Inside.write (by omega)) fun _ => Inside.nothing

/-- What a block number below the number of blocks means. -/
theorem divCeil_bounds {w bw n k : Nat} (e : divCeil w bw = .ok n) (hk : k < n) (hw : w < 2 ^ 61) :
    bw * k < w ∧ k < 2 ^ 61 := by
  have hbw : bw ≠ 0 := by
    rintro rfl
    cases e
  rw [divCeil_ok hbw, Out.ok.injEq] at e
  have hb := Nat.pos_of_ne_zero hbw
  have h1 := ceilDiv_bound hb (show k < Spec.ceilDiv w bw by unfold Spec.ceilDiv; omega)
  have := Nat.le_mul_of_pos_left k hb
  omega

theorem pos_of_blocks {w h bw bh nbx nby i j : Nat} (e1 : divCeil w bw = .ok nbx)
    (e2 : divCeil h bh = .ok nby) (hi : i < nbx) (hj : j < nby) : 0 < w ∧ 0 < h := by
  constructor
  · apply Nat.pos_of_ne_zero
    rintro rfl
    unfold divCeil at e1
    split at e1
    · cases e1
    · rw [Nat.zero_div, Nat.zero_mod, if_pos rfl, Out.ok.injEq] at e1; omega
  · apply Nat.pos_of_ne_zero
    rintro rfl
    unfold divCeil at e2
    split at e2
    · cases e2
    · rw [Nat.zero_div, Nat.zero_mod, if_pos rfl, Out.ok.injEq] at e2; omega

/-- A block of the image, once the sizes are checked. -/
theorem blockR_inside {w h bw bh nbx nby bx by' : Nat} {buffer : List UInt32}
    (e1 : divCeil w bw = .ok nbx) (e2 : divCeil h bh = .ok nby) (hwh : w * h < 2 ^ 61)
    (hbw : bw < 2 ^ 64) (hbh : bh < 2 ^ 64) (hi : bx < nbx) (hj : by' < nby) :
    Inside (w * h) (copyBlockBufferR bx by' w h bw bh buffer) := by
  obtain ⟨pw, ph⟩ := pos_of_blocks e1 e2 hi hj
  have hw : w < 2 ^ 61 := by have := Nat.le_mul_of_pos_right w ph; omega
  have hh : h < 2 ^ 61 := by have := Nat.le_mul_of_pos_left h pw; omega
  obtain ⟨a1, a2⟩ := divCeil_bounds e1 hi hw
  obtain ⟨b1, b2⟩ := divCeil_bounds e2 hj hh
  rw [Nat.mul_comm] at b1
  exact copyBlockBufferR_inside hw hh hwh a1 b1 hbw hbh a2 b2

theorem blockDecoderR_inside {bw bh raw : Nat} {f : BlockFn} {data : List UInt8} {w h : Nat}
    (hwh : w * h < 2 ^ 64) (hbw : bw < 2 ^ 64) (hbh : bh < 2 ^ 64) :
    Inside (w * h) (blockDecoderR bw bh raw f data w h) := by
  unfold blockDecoderR
  refine Inside.lift fun nbx e1 => Inside.lift fun nby e2 => Inside.lift fun blocks _ =>
    Inside.lift fun need _ => ?_
  split
  · exact Inside.pure
  · rw [mulU_ok hwh]
    refine Inside.lift fun pixels e => Inside.size fun k hk => ?_
    rw [Out.ok.injEq] at e
    subst e
    split
    · exact Inside.pure
    · refine Inside.bind (Inside.forRange fun by' hj _ => Inside.forRange fun bx hi s =>
        Inside.lift fun _ _ => Inside.lift fun _ _ => Inside.bind ?_ fun _ =>
        Inside.lift fun _ _ => Inside.pure) fun _ => Inside.pure
      exact blockR_inside e1 e2 (by omega) hbw hbh hi hj

theorem decodeAstcR_inside {data : List UInt8} {w h bw bh : Nat} (hwh : w * h < 2 ^ 64)
    (hbw : bw < 2 ^ 64) (hbh : bh < 2 ^ 64) : Inside (w * h) (decodeAstcR data w h bw bh) := by
  unfold decodeAstcR
  refine Inside.lift fun nbx e1 => Inside.lift fun nby e2 => Inside.lift fun blocks _ =>
    Inside.lift fun need _ => ?_
  split
  · exact Inside.pure
  · rw [mulU_ok hwh]
    refine Inside.lift fun pixels e => Inside.size fun k hk => ?_
    rw [Out.ok.injEq] at e
    subst e
    split
    · exact Inside.pure
    · refine Inside.lift fun size _ => ?_
      split
      · exact Inside.pure
      · refine Inside.bind (Inside.forRange fun by' hj _ => Inside.forRange fun bx hi s =>
          Inside.lift fun _ _ => Inside.lift fun _ _ => Inside.bind ?_ fun _ =>
          Inside.lift fun _ _ => Inside.pure) fun _ => Inside.pure
        exact blockR_inside e1 e2 (by omega) hbw hbh hi hj

theorem decodePvrtcR_inside {is2 : Bool} {data : List UInt8} {w h : Nat} (hwh : w * h < 2 ^ 64) :
    Inside (w * h) (decodePvrtcR is2 data w h) := by
  have hbw : (if is2 then 8 else 4) < 2 ^ 64 := by split <;> decide
  unfold decodePvrtcR
  refine Inside.lift fun nbx e1 => Inside.lift fun nby e2 => Inside.lift fun n _ =>
    Inside.lift fun need _ => ?_
  split
  · exact Inside.pure
  · rw [mulU_ok hwh]
    refine Inside.lift fun pixels e => Inside.size fun k hk => ?_
    rw [Out.ok.injEq] at e
    subst e
    split
    · exact Inside.pure
    · refine Inside.lift fun badX _ => Inside.lift fun bad _ => ?_
      split
      · exact Inside.pure
      · refine Inside.lift fun infos _ => Inside.bind (Inside.forRange fun by' hj _ =>
          Inside.lift fun posY _ => Inside.forRange fun bx hi s =>
          Inside.lift fun _ _ => Inside.lift fun _ _ => Inside.lift fun _ _ =>
          Inside.lift fun _ _ => Inside.lift fun _ _ => Inside.lift fun _ _ =>
          Inside.bind ?_ fun _ => Inside.pure) fun _ => Inside.pure
        exact blockR_inside e1 e2 (by omega) hbw (by decide) hi hj

theorem decodeCrunchR_inside {data : List UInt8} {w h : Nat} (hwh : w * h < 2 ^ 64) :
    Inside (w * h) (decodeCrunchR data w h) := by
  unfold decodeCrunchR
  cases Crn.crunchUnpackLevel data (asU 32 data.length) 0 with
  | panic => exact Inside.nothing
  | fail msg => exact Inside.pure
  | ok hd =>
    simp only
    cases hd.format <;>
      first | exact blockDecoderR_inside hwh (by decide) (by decide) | exact Inside.pure

theorem decodeUnityCrunchR_inside {data : List UInt8} {w h : Nat} (hwh : w * h < 2 ^ 64) :
    Inside (w * h) (decodeUnityCrunchR data w h) := by
  unfold decodeUnityCrunchR
  cases Crn.Unity.unityCrunchUnpackLevel data (asU 32 data.length) 0 with
  | panic => exact Inside.nothing
  | fail msg => exact Inside.pure
  | ok hd =>
    simp only
    cases hd.format <;>
      first | exact blockDecoderR_inside hwh (by decide) (by decide) | exact Inside.pure

end Verif.Proofs
