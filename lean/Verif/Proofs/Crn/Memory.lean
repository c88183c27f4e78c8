import Verif.Model.CrnMemory
import Verif.Proofs.Crn.AnyFile
import Verif.Proofs.Crn.UnityAnyFile
import Verif.Proofs.Crn.UnityFile

/-! # The block buffer of the Crunch decoders -/

namespace Verif.Proofs.Crn

open Verif Verif.Model Verif.Model.Crn

/-- `x` is the first part of `y`: it ends as `y` does if it does not come to the allocation, and
otherwise gives the size of what `y` returns. -/
structure Before {β : Type} (len : β → Nat) (x : Res Nat) (y : Res β) : Prop where
  fail : ∀ m, x = .fail m → y = .fail m
  panic : x = .panic → y = .panic
  size : ∀ b, y = .ok b → x = .ok (len b)

theorem Before.bind {α β : Type} {len : β → Nat} {a : Res α} {f : α → Res Nat} {g : α → Res β}
    (h : ∀ v, Before len (f v) (g v)) : Before len (a >>= f) (a >>= g) := by
  cases a with
  | ok v => exact h v
  | fail m => exact ⟨fun _ e => (by cases e; rfl), fun e => (by cases e), fun _ e => (by cases e)⟩
  | panic => exact ⟨fun _ e => (by cases e), fun _ => rfl, fun _ e => (by cases e)⟩

theorem Before.failed {β : Type} {len : β → Nat} {m : String} :
    Before len (.fail m) (.fail m : Res β) :=
  ⟨fun _ e => (by cases e; rfl), fun e => (by cases e), fun _ e => (by cases e)⟩

/-- The allocation. -/
theorem Before.alloc {β : Type} {len : β → Nat} {a : Res Nat} {g : Nat → Res β}
    (h : ∀ n, After (fun b => len b = n) (g n)) : Before len a (a >>= g) := by
  cases a with
  | ok n => exact ⟨fun _ e => (by cases e), fun e => (by cases e), fun b e => (by rw [h n b e])⟩
  | fail m => exact ⟨fun _ e => (by cases e; rfl), fun e => (by cases e), fun _ e => (by cases e)⟩
  | panic => exact ⟨fun _ e => (by cases e), fun _ => rfl, fun _ e => (by cases e)⟩

/-- What follows only wraps the result. -/
theorem Before.map {β γ : Type} {len : β → Nat} {len' : γ → Nat} {x : Res Nat} {y : Res β}
    {g : β → γ} (h : Before len x y) (hl : ∀ b, len' (g b) = len b) :
    Before len' x (y >>= fun b => pure (g b)) := by
  obtain ⟨h1, h2, h3⟩ := h
  refine ⟨fun m e => (by rw [h1 m e]; rfl), fun e => (by rw [h2 e]; rfl), fun c e => ?_⟩
  obtain ⟨b, eb, ec⟩ := Res.bind_eq_ok.mp e
  cases ec
  rw [h3 b eb, hl b]

variable [Build]

theorem unpackLevel2_before {u : Crn.Unpacker} {src : List UInt8} {srcSize dstSize pitch : Nat} :
    Before List.length (bufferBytes2 u dstSize pitch)
      (unpackLevel2 u src srcSize dstSize pitch 0) := by
  unfold unpackLevel2 bufferBytes2
  refine .bind fun _ => .bind fun _ => .bind fun _ => .bind fun _ => .bind fun _ => ?_
  split
  · exact .failed
  refine .alloc fun size => .any fun _ => ?_
  split
  · exact .failed
  exact .any fun _ => .any fun _ => .any fun _ => .seq (Q := DstLen size)
    (unpackFormat_keeps (List.length_replicate ..)) fun _ h => .ok h

theorem unpackLevel_before {u : Crn.Unpacker} {dstSize pitch : Nat} :
    Before List.length (bufferBytes1 u dstSize pitch) (unpackLevel u dstSize pitch 0) := by
  unfold unpackLevel bufferBytes1
  split
  · exact .failed
  refine .bind fun _ => .bind fun _ => ?_
  split
  · exact .failed
  exact .bind fun _ => .bind fun _ => unpackLevel2_before

theorem crunchUnpackLevel_before {data : List UInt8} :
    Before (fun r : Handler => r.dxtData.length) (bufferBytes data)
      (crunchUnpackLevel data (asU 32 data.length) 0) := by
  unfold crunchUnpackLevel bufferBytes
  refine .bind fun p => ?_
  obtain ⟨ok, info⟩ := p
  dsimp only
  split
  · exact .failed
  exact .bind fun _ => .bind fun _ => .bind fun _ => .bind fun _ => .bind fun _ => .bind fun _ =>
    .bind fun _ => .bind fun _ => .map unpackLevel_before fun _ => rfl

theorem uUnpackLevel2_before {u : Crn.Unpacker} {src : List UInt8} {srcSize dstSize pitch : Nat} :
    Before List.length (Unity.bufferBytes2 u dstSize pitch)
      (Unity.unpackLevel2 u src srcSize dstSize pitch 0) := by
  unfold Unity.unpackLevel2 Unity.bufferBytes2
  refine .bind fun _ => .bind fun _ => .bind fun _ => .bind fun _ => .bind fun _ => ?_
  split
  · exact .failed
  refine .alloc fun size => .any fun _ => ?_
  split
  · exact .failed
  exact .any fun _ => .seq (Q := Unity.UDstLen size)
    (Unity.uUnpackFormat_keeps (List.length_replicate ..)) fun _ h => .ok h

theorem uUnpackLevel_before {u : Crn.Unpacker} {dstSize pitch : Nat} :
    Before List.length (Unity.bufferBytes1 u dstSize pitch) (Unity.unpackLevel u dstSize pitch 0) := by
  unfold Unity.unpackLevel Unity.bufferBytes1
  split
  · exact .failed
  refine .bind fun _ => .bind fun _ => ?_
  split
  · exact .failed
  exact .bind fun _ => .bind fun _ => uUnpackLevel2_before

theorem unityCrunchUnpackLevel_before {data : List UInt8} :
    Before (fun r : Handler => r.dxtData.length) (Unity.bufferBytes data)
      (Unity.unityCrunchUnpackLevel data (asU 32 data.length) 0) := by
  unfold Unity.unityCrunchUnpackLevel Unity.bufferBytes
  refine .bind fun p => ?_
  obtain ⟨ok, info⟩ := p
  dsimp only
  split
  · exact .failed
  exact .bind fun _ => .bind fun _ => .bind fun _ => .bind fun _ => .bind fun _ => .bind fun _ =>
    .bind fun _ => .bind fun _ => .map uUnpackLevel_before fun _ => rfl

/-- A product that is at most `2^32` is computed exactly, or wraps to 0. -/
theorem mulU32_edge {a b : Nat} (h : a * b ≤ 2 ^ 32) :
    AfterOut (fun c => c = a * b ∨ c = 0) (mulU 32 a b) := by
  intro c e
  unfold mulU fitU at e
  split at e
  · cases e; exact .inl rfl
  · split at e
    · cases e
    · cases e
      right
      omega

theorem bufferBytes2_exact {u : Crn.Unpacker} {dst pitch : Nat} (hd : dst ≤ 2 ^ 32)
    (hf : u.header.faces < 256) :
    After (fun n => n = dst * u.header.faces) (bufferBytes2 u dst pitch) := by
  have hm : dst * u.header.faces < 2 ^ 64 :=
    Nat.lt_of_le_of_lt (Nat.mul_le_mul hd (Nat.le_of_lt hf)) (by decide)
  unfold bufferBytes2
  refine .any fun _ => .any fun _ => .any fun _ => .any fun _ => .any fun _ => ?_
  split
  · exact .failed
  rw [mulU_ok hm]
  exact After.ok rfl

theorem uBufferBytes2_exact {u : Crn.Unpacker} {dst pitch : Nat} (hd : dst ≤ 2 ^ 32)
    (hf : u.header.faces < 256) :
    After (fun n => n = dst * u.header.faces) (Unity.bufferBytes2 u dst pitch) := by
  have hm : dst * u.header.faces < 2 ^ 64 :=
    Nat.lt_of_le_of_lt (Nat.mul_le_mul hd (Nat.le_of_lt hf)) (by decide)
  unfold Unity.bufferBytes2
  refine .any fun _ => .any fun _ => .any fun _ => .any fun _ => .any fun _ => ?_
  split
  · exact .failed
  rw [mulU_ok hm]
  exact After.ok rfl

omit [Build] in
/-- A request is made only for files with a header. -/
theorem textureInfo_true {d : List UInt8} {size : Nat} {info : CrnTextureInfo}
    (h : crndGetTextureInfo CrnTextureInfo.default d size = .ok (true, info)) :
    74 ≤ size ∧ Spec.Crn.headerBytes d ≤ d.length ∧ Spec.Crn.HeaderOk d size ∧
      Spec.Crn.format d ≤ 15 := by
  rcases Nat.lt_or_ge size 74 with h1 | h1
  · rw [textureInfo_short (.inl h1)] at h; cases h
  rcases Nat.lt_or_ge d.length (Spec.Crn.headerBytes d) with h2 | h2
  · rw [textureInfo_panic h1 rfl h2] at h; cases h
  by_cases h3 : Spec.Crn.HeaderOk d size
  · rcases Nat.lt_or_ge 15 (Spec.Crn.format d) with h4 | h4
    · rw [textureInfo_format h1 rfl h2 h3 h4] at h; cases h
    · exact ⟨h1, h2, h3, h4⟩
  · rw [textureInfo_bad h1 rfl h2 h3] at h; cases h

omit [Build] in
theorem blocks_le {file : List UInt8} :
    Spec.Crn.blocksX file ≤ 16384 ∧ Spec.Crn.blocksY file ≤ 16384 := by
  have hw : Spec.Crn.width file < 2 ^ 16 := be_lt file _ 2
  have hh : Spec.Crn.height file < 2 ^ 16 := be_lt file _ 2
  unfold Spec.Crn.blocksX Spec.Crn.blocksY Spec.Crn.blocksOf
  omega

omit [Build] in
theorem bytesPerBlock_le {n : Nat} : Spec.Crn.bytesPerBlock n ≤ 16 := by
  unfold Spec.Crn.bytesPerBlock
  split <;> omega

theorem bufferBytes_exact {file : List UInt8} (hl : file.length < 2 ^ 32) :
    After (fun n => n = Spec.Crn.bytesPerBlock (Spec.Crn.format file) *
      (Spec.Crn.faces file * Spec.Crn.blocksY file * Spec.Crn.blocksX file)) (bufferBytes file) := by
  unfold bufferBytes
  rw [show asU 32 file.length = file.length from Nat.mod_eq_of_lt hl]
  refine .seq (Q := fun p => crndGetTextureInfo CrnTextureInfo.default file file.length = .ok p)
    (fun p e => Res.lift_eq_ok.mp e) fun p hp => ?_
  obtain ⟨ok, info⟩ := p
  cases ok with
  | false => exact .failed
  | true =>
  obtain ⟨h74, hhb, hok, hf⟩ := textureInfo_true hp
  rw [textureInfo_ok h74 rfl hhb hok hf] at hp
  cases hp
  dsimp only
  rw [if_neg (by simp)]
  have hw : Spec.Crn.width file < 2 ^ 16 := be_lt file _ 2
  have hh : Spec.Crn.height file < 2 ^ 16 := be_lt file _ 2
  have hfc : Spec.Crn.faces file < 256 := be_lt file _ 1
  rw [shrU_ok (by decide), shrU_ok (by decide), Nat.shiftRight_zero, Nat.shiftRight_zero]
  refine .seq (unpackBegin_header h74 hhb) fun u hu => ?_
  rw [Res.lift_ok, Res.ok_bind, Res.lift_ok, Res.ok_bind, addU_ok (by omega), addU_ok (by omega),
    Res.lift_ok, Res.ok_bind, Res.lift_ok, Res.ok_bind]
  have hbx : max 1 ((max 1 (Spec.Crn.width file) + 3) >>> 2) = Spec.Crn.blocksX file := by
    unfold Spec.Crn.blocksX Spec.Crn.blocksOf
    rw [Nat.shiftRight_eq_div_pow]
    omega
  have hby : max 1 ((max 1 (Spec.Crn.height file) + 3) >>> 2) = Spec.Crn.blocksY file := by
    unfold Spec.Crn.blocksY Spec.Crn.blocksOf
    rw [Nat.shiftRight_eq_div_pow]
    omega
  rw [hbx, hby]
  refine .seq bytesPerDxtBlock_eq fun b hb => ?_
  obtain ⟨lx, ly⟩ := blocks_le (file := file)
  have hb16 : b ≤ 16 := hb ▸ bytesPerBlock_le
  have hp : Spec.Crn.blocksX file * b ≤ 2 ^ 18 := Nat.le_trans (Nat.mul_le_mul lx hb16) (by decide)
  rw [mulU_ok (by omega), Res.lift_ok, Res.ok_bind]
  have ht : Spec.Crn.blocksX file * b * Spec.Crn.blocksY file ≤ 2 ^ 32 :=
    Nat.le_trans (Nat.mul_le_mul hp ly) (by decide)
  refine .seq (.lift (mulU32_edge ht)) fun t htt => ?_
  unfold bufferBytes1
  split
  · exact .failed
  next h8 =>
  have htt : t = _ := htt.resolve_right (by omega)
  refine .any fun _ => .any fun _ => ?_
  split
  · exact .failed
  have hu2 : u.header.faces = Spec.Crn.faces file := by rw [hu]; rfl
  refine .any fun _ => .any fun _ => fun n e => ?_
  rw [bufferBytes2_exact (by omega) (by omega) n e, hu2, htt, hb]
  ac_rfl

theorem uBufferBytes_exact {file : List UInt8} (hl : file.length < 2 ^ 32) :
    After (fun n => n = Spec.Crn.bytesPerBlock (Spec.Crn.format file) *
      (Spec.Crn.faces file * Spec.Crn.blocksY file * Spec.Crn.blocksX file))
      (Unity.bufferBytes file) := by
  unfold Unity.bufferBytes
  rw [show asU 32 file.length = file.length from Nat.mod_eq_of_lt hl]
  refine .seq (Q := fun p => crndGetTextureInfo CrnTextureInfo.default file file.length = .ok p)
    (fun p e => Res.lift_eq_ok.mp e) fun p hp => ?_
  obtain ⟨ok, info⟩ := p
  cases ok with
  | false => exact .failed
  | true =>
  obtain ⟨h74, hhb, hok, hf⟩ := textureInfo_true hp
  rw [textureInfo_ok h74 rfl hhb hok hf] at hp
  cases hp
  dsimp only
  rw [if_neg (by simp)]
  have hw : Spec.Crn.width file < 2 ^ 16 := be_lt file _ 2
  have hh : Spec.Crn.height file < 2 ^ 16 := be_lt file _ 2
  have hfc : Spec.Crn.faces file < 256 := be_lt file _ 1
  rw [shrU_ok (by decide), shrU_ok (by decide), Nat.shiftRight_zero, Nat.shiftRight_zero]
  refine .seq (Unity.uUnpackBegin_header h74 hhb) fun u hu => ?_
  rw [Res.lift_ok, Res.ok_bind, Res.lift_ok, Res.ok_bind, addU_ok (by omega), addU_ok (by omega),
    Res.lift_ok, Res.ok_bind, Res.lift_ok, Res.ok_bind]
  have hbx : max 1 ((max 1 (Spec.Crn.width file) + 3) >>> 2) = Spec.Crn.blocksX file := by
    unfold Spec.Crn.blocksX Spec.Crn.blocksOf
    rw [Nat.shiftRight_eq_div_pow]
    omega
  have hby : max 1 ((max 1 (Spec.Crn.height file) + 3) >>> 2) = Spec.Crn.blocksY file := by
    unfold Spec.Crn.blocksY Spec.Crn.blocksOf
    rw [Nat.shiftRight_eq_div_pow]
    omega
  rw [hbx, hby]
  refine .seq Unity.uBytesPerDxtBlock_eq fun b hb => ?_
  obtain ⟨lx, ly⟩ := blocks_le (file := file)
  have hb16 : b ≤ 16 := hb ▸ bytesPerBlock_le
  have hp : Spec.Crn.blocksX file * b ≤ 2 ^ 18 := Nat.le_trans (Nat.mul_le_mul lx hb16) (by decide)
  rw [mulU_ok (by omega), Res.lift_ok, Res.ok_bind]
  have ht : Spec.Crn.blocksX file * b * Spec.Crn.blocksY file ≤ 2 ^ 32 :=
    Nat.le_trans (Nat.mul_le_mul hp ly) (by decide)
  refine .seq (.lift (mulU32_edge ht)) fun t htt => ?_
  unfold Unity.bufferBytes1
  split
  · exact .failed
  next h8 =>
  have htt : t = _ := htt.resolve_right (by omega)
  refine .any fun _ => .any fun _ => ?_
  split
  · exact .failed
  have hu2 : u.header.faces = Spec.Crn.faces file := by rw [hu]; rfl
  refine .any fun _ => .any fun _ => fun n e => ?_
  rw [uBufferBytes2_exact (by omega) (by omega) n e, hu2, htt, hb]
  ac_rfl

open Verif.Spec.Crn Unity in
/-- A file whose tables and palettes can be read comes to the allocation, whatever its level holds. -/
theorem uBufferBytes_ok {file : List UInt8} {u : Crn.Unpacker}
    (hh : HeaderOk file file.length) (hlv : 0 < levels file) (hhb : headerBytes file ≤ file.length)
    (hl : file.length < 2 ^ 32) (hbig : bytesPerBlock (format file) * (blocksY file * blocksX file) < 2 ^ 32)
    (eu : Model.Crn.Unity.init file file.length = .ok u) (hd : u.data = file)
    (hsz : u.dataSize = file.length) (hu : u.header = specHeader file) (hk : Known (format file))
    (h0 : levelOfs file 0 < levelEnd file) (hin : levelOfs file 0 ≤ file.length) :
    Unity.bufferBytes file
      = .ok (bytesPerBlock (format file) * (faces file * blocksY file * blocksX file)) := by
  have h74 : 74 ≤ file.length := by unfold headerBytes at hhb; omega
  have hwl : width file < 2 ^ 16 := be_lt file _ 2
  have hhl : height file < 2 ^ 16 := be_lt file _ 2
  have hfl : faces file < 256 := be_lt file _ 1
  have hnx : blocksX file < 2 ^ 15 := blocksOf_lt hwl
  have hnx0 : 0 < blocksX file := blocksOf_pos _
  have hny0 : 0 < blocksY file := blocksOf_pos _
  generalize hB : 4 * wordsOf (format file) = B
  have hBB : B = 8 ∨ B = 16 := by have := wordsOf_cases (format file); omega
  have hT2 : B * blocksX file * blocksY file = B * (blocksY file * blocksX file) := by
    rw [Nat.mul_assoc, Nat.mul_comm (blocksX file)]
  have hBB' : B = bytesPerBlock (format file) := by
    rw [← hB]; unfold wordsOf bytesPerBlock
    simp only [List.mem_cons, List.not_mem_nil, or_false]
    split <;> rfl
  rw [← hBB'] at hbig
  have hTp : 0 < blocksY file * blocksX file := Nat.mul_pos hny0 hnx0
  have hbits : ∀ n, n < 2 ^ 16 → shrU 32 n 0 = .ok n := fun n _ => by
    rw [shrU_ok (by omega)]; rfl
  have hfmt : u.header.format = format file := by rw [hu]; rfl
  have hfac : u.header.faces = faces file := by rw [hu]; rfl
  have hw : u.header.width = width file := by rw [hu]; rfl
  have hhe : u.header.height = height file := by rw [hu]; rfl
  have hBf : (if format file = 0 ∨ format file = 9 ∨ format file = 10 ∨ format file = 11 ∨
      format file = 13 then 8 else 16) = B := by
    rw [← hB]; unfold wordsOf; split <;> rfl
  have hofs : u.header.levelOfs[0]? = some (levelOfs file 0) := by
    rw [hu]
    show ((List.range (levels file)).map (levelOfs file))[0]? = _
    rw [List.getElem?_map, List.getElem?_range hlv]; rfl
  have hnext : nextLevelOfs u 0 = .ok (levelEnd file) := by
    unfold nextLevelOfs levelEnd
    rw [addU_ok (by omega), Out.ok_bind]
    have hlvs : u.header.levels = levels file := by rw [hu]; rfl
    rw [hlvs]
    by_cases hl1 : 1 < levels file
    · refine (if_pos hl1).trans ?_
      rw [if_pos hl1]
      apply idx_of_some
      rw [hu]
      show ((List.range (levels file)).map (levelOfs file))[0 + 1]? = _
      rw [List.getElem?_map, List.getElem?_range hl1]; rfl
    · refine (if_neg hl1).trans ?_
      rw [if_neg hl1, hsz]; rfl
  have es : sliceFrom file (levelOfs file 0) = .ok (file.drop (levelOfs file 0)) := sliceFrom_ok hin
  have h2 : ∃ n, Unity.bufferBytes2 u (B * blocksX file * blocksY file) (blocksX file * B) = .ok n := by
    unfold Unity.bufferBytes2
    rw [hw, hhe, hbits _ hwl, Res.lift_ok, Res.ok_bind, hbits _ hhl, Res.lift_ok, Res.ok_bind,
      addU_ok (by omega), Res.lift_ok, Res.ok_bind, addU_ok (by omega), Res.lift_ok, Res.ok_bind]
    simp only [blocksOf_shift, hfmt, hBf, hfac]
    rw [show blocksOf (width file) = blocksX file from rfl]
    rw [mulU_ok (by rcases hBB with rfl | rfl <;> omega), Res.lift_ok, Res.ok_bind]
    rw [if_neg (by
      rintro ⟨_, hc | hc⟩
      · rw [Nat.mul_comm] at hc; omega
      · apply hc
        rw [show (3 : Nat) = 2 ^ 2 - 1 from rfl, Nat.and_two_pow_sub_one_eq_mod]
        rcases hBB with rfl | rfl <;> omega)]
    have hm : B * blocksX file * blocksY file * faces file < 2 ^ 64 := by
      have : B * blocksX file * blocksY file ≤ 2 ^ 32 := by rw [hT2]; omega
      exact Nat.lt_of_le_of_lt (Nat.mul_le_mul this (Nat.le_of_lt hfl)) (by decide)
    rw [mulU_ok hm]
    exact ⟨_, rfl⟩
  obtain ⟨n, e2⟩ := h2
  have e : Unity.bufferBytes file = .ok n := by
    have hf15 : format file ≤ 15 := by unfold Known at hk; omega
    unfold Unity.bufferBytes
    rw [show asU 32 file.length = file.length from Nat.mod_eq_of_lt hl,
      textureInfo_ok h74 rfl hhb hh hf15, Res.lift_ok, Res.ok_bind]
    simp only
    rw [if_neg (by simp)]
    unfold Model.Crn.Unity.unpackBegin
    rw [if_neg (by omega), eu, Res.orErr_ok, Res.ok_bind, hbits _ hwl, Res.lift_ok, Res.ok_bind,
      hbits _ hhl, Res.lift_ok, Res.ok_bind, addU_ok (by omega), Res.lift_ok, Res.ok_bind,
      addU_ok (by omega), Res.lift_ok, Res.ok_bind, unityBytesPerDxtBlock_ok hk, hB, Res.ok_bind]
    rw [Nat.max_comm 1 (width file), Nat.max_comm 1 (height file), blocksOf_shift, blocksOf_shift,
      show blocksOf (width file) = blocksX file from rfl, show blocksOf (height file) = blocksY file from rfl,
      Nat.max_eq_right (show 1 ≤ blocksX file from hnx0), Nat.max_eq_right (show 1 ≤ blocksY file from hny0)]
    rw [mulU_ok (by rcases hBB with rfl | rfl <;> omega), Res.lift_ok, Res.ok_bind,
      mulU_ok (by
        rw [Nat.mul_comm (blocksX file) B, hT2]
        exact hbig), Res.lift_ok, Res.ok_bind]
    rw [show blocksX file * B * blocksY file = B * blocksX file * blocksY file by
      rw [Nat.mul_comm (blocksX file) B]]
    unfold Unity.bufferBytes1
    rw [if_neg (by rw [hT2]; rcases hBB with rfl | rfl <;> omega), idx_of_some hofs, Res.lift_ok,
      Res.ok_bind, hnext, Res.lift_ok, Res.ok_bind, if_neg (by omega), hd, es, Res.lift_ok,
      Res.ok_bind, subU_ok (by omega), Res.lift_ok, Res.ok_bind, e2]
  rw [e, uBufferBytes_exact hl n e]

open Verif.Spec.Crn Unity in
/-- The same, from the sections of the file. -/
theorem uBufferBytes_sections {file : List UInt8} {cs : Spec.Crn.Codes} {colour alpha : Spec.Crn.Plane}
    (hf : hasSubblocks (format file) = false)
    (hh : HeaderOk file file.length) (hlv : 0 < levels file) (hhb : headerBytes file ≤ file.length)
    (hl : file.length < 2 ^ 32) (hs : SectionsInside file)
    (hbig : bytesPerBlock (format file) * (blocksY file * blocksX file) < 2 ^ 32)
    (h1 : fileCodes file = some cs) (h2 : Spec.Crn.Unity.colourPlane file cs = some colour)
    (h3 : Spec.Crn.Unity.alphaPlane file cs = some alpha) (hk : Known (format file))
    (h0 : levelOfs file 0 < levelEnd file) (hin : levelOfs file 0 ≤ file.length) :
    Unity.bufferBytes file
      = .ok (bytesPerBlock (format file) * (faces file * blocksY file * blocksX file)) := by
  have h74 : 74 ≤ file.length := by unfold headerBytes at hhb; omega
  obtain ⟨t, et, ht⟩ := initTables_ok h1 hs.tables
  obtain ⟨E, S, ec, _⟩ := wholeColour_ok hf h2 ht hs
  obtain ⟨E', A, V, ea, _⟩ := wholeAlpha_ok hf h3 ht hs
  exact uBufferBytes_ok hh hlv hhb hl hbig (Unity.init_eq hh hhb h74 et ec ea) rfl rfl rfl hk h0 hin

open Verif.Spec.Crn Unity in
/-- The same for formats with two colours per block. -/
theorem uBufferBytes_halves {file : List UInt8} {cs : Spec.Crn.Codes} {colours : List Spec.Crn.Unity.EtcColour}
    {sels : List (List Nat)} (hf : format file = 10 ∨ format file = 11 ∨ format file = 12)
    (hh : HeaderOk file file.length) (hlv : 0 < levels file) (hhb : headerBytes file ≤ file.length)
    (hl : file.length < 2 ^ 32) (hs : SectionsInside file)
    (hbig : bytesPerBlock (format file) * (blocksY file * blocksX file) < 2 ^ 32)
    (h1 : fileCodes file = some cs) (hce : (colorEndpoints file).num ≠ 0)
    (h2 : readSection file (colorEndpoints file).ofs (colorEndpoints file).size
      (Spec.Crn.Unity.etcColours (colorEndpoints file).num) = some colours)
    (h3 : readSection file (colorSelectors file).ofs (colorSelectors file).size
      (Spec.Crn.Unity.selectorEntries 4 (colorSelectors file).num) = some sels)
    (h4 : (alphaEndpoints file).num = 0 ∨ (format file = 12 ∧
      (∃ alphas, filePalette file (alphaEndpoints file) alphaEndpointPalette = some alphas) ∧
      ∃ asels, readSection file (alphaSelectors file).ofs (alphaSelectors file).size
        (Spec.Crn.Unity.selectorEntries 8 (alphaSelectors file).num) = some asels))
    (h0 : levelOfs file 0 < levelEnd file) (hin : levelOfs file 0 ≤ file.length) :
    Unity.bufferBytes file
      = .ok (bytesPerBlock (format file) * (faces file * blocksY file * blocksX file)) := by
  have h74 : 74 ≤ file.length := by unfold headerBytes at hhb; omega
  have hsub : hasSubblocks (format file) = true := by
    unfold hasSubblocks; rcases hf with hf | hf | hf <;> simp [hf]
  have hetc : hasEtc (format file) = true := by
    unfold hasEtc; rcases hf with hf | hf | hf <;> simp [hf]
  have hk : Known (format file) := by unfold Known; omega
  have hci := hs.colours hce
  obtain ⟨t, et, ht⟩ := initTables_ok h1 hs.tables
  obtain ⟨e1, n1, v1⟩ := etcColours_ok h2 hci.1
  obtain ⟨e2, n2, v2⟩ := etcSelectors_ok hetc h3 hci.2
  rw [hsub] at e1 e2
  have ec : colourPart file = .ok (colours.map (storedColour true), sels.flatMap (storedSelectors true)) := by
    unfold colourPart
    refine (if_pos (show (specHeader file).colorEndpoints.num ≠ 0 from hce)).trans ?_
    rw [if_pos hetc, e1, Res.ok_bind, e2, Res.ok_bind]; rfl
  have ha : ∃ E' A, alphaPart file = .ok (E', A) := by
    by_cases hae : (alphaEndpoints file).num = 0
    · refine ⟨[], [], ?_⟩
      unfold alphaPart
      exact if_neg (fun hc => hc hae)
    · obtain ⟨f12, ⟨alphas, h4⟩, asels, h5⟩ := h4.resolve_left hae
      have hai := hs.alphas hae
      obtain ⟨E', e4, -⟩ := alphaEndpoints_ok h4 hai.1
      obtain ⟨A, e5, -⟩ := eacSelectorsTwice_ok h5 hai.2
      refine ⟨E', A, ?_⟩
      unfold alphaPart
      refine (if_pos (show (specHeader file).alphaEndpoints.num ≠ 0 from hae)).trans ?_
      have : decodeAlphaSelectorsAny file (specHeader file) = .ok A := by
        unfold decodeAlphaSelectorsAny
        rw [show (specHeader file).format = format file from rfl, if_neg (by omega), if_pos f12, e5]
      rw [e4, Res.ok_bind, this, Res.ok_bind]; rfl
  obtain ⟨E', A, ea⟩ := ha
  exact uBufferBytes_ok hh hlv hhb hl hbig (Unity.init_eq hh hhb h74 et ec ea) rfl rfl rfl hk h0 hin

end Verif.Proofs.Crn
