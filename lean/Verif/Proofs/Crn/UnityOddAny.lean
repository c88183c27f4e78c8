import Verif.Proofs.Crn.UnityAnyFile
import Verif.Proofs.Crn.UnityFile

/-! # Files with an odd number of block columns, whatever they hold -/

namespace Verif.Proofs.Crn.Unity

open Verif Verif.Spec.Crn Verif.Model.Crn Verif.Model.Crn.Unity

variable [Build]

theorem mulU_checked (hck : Build.overflowChecks = true) {n a b : Nat} :
    AfterOut (fun c => c = a * b) (mulU n a b) := by
  intro c e
  unfold mulU fitU at e
  by_cases h : a * b < 2 ^ n
  · rw [if_pos h] at e; cases e; rfl
  · rw [if_neg h, if_pos hck] at e; cases e

omit [Build] in
theorem bytesPerBlock_words {n : Nat} (hk : Known n) : bytesPerBlock n = 4 * wordsOf n := by
  unfold Known at hk
  have hn : n < 15 := by omega
  match n, hn with
  | 0, _ | 2, _ | 3, _ | 4, _ | 5, _ | 6, _ | 7, _ | 8, _ | 9, _ | 10, _ | 11, _ | 12, _ | 13, _
  | 14, _ => rfl
  | 1, _ => omega

theorem unityUnpackLevel2_odd {file : List UInt8} {u : Unpacker} (hu : u.header = specHeader file)
    (hk : Known (format file)) (hck : Build.overflowChecks = true) (hodd : blocksX file % 2 = 1)
    {src : List UInt8} {size total : Nat} :
    After (fun _ => False)
      (Model.Crn.Unity.unpackLevel2 u src size total (blocksX file * bytesPerBlock (format file)) 0) := by
  have hw : width file < 2 ^ 16 := be_lt file _ 2
  have hh : height file < 2 ^ 16 := be_lt file _ 2
  have hx : blocksX file < 2 ^ 15 := blocksOf_lt hw
  have hy : blocksY file < 2 ^ 15 := blocksOf_lt hh
  have hpos : 0 < bytesPerBlock (format file) := by
    rw [bytesPerBlock_words hk]; have := wordsOf_cases (format file); omega
  have hp : blocksX file * bytesPerBlock (format file) ≠ 0 :=
    Nat.ne_of_gt (Nat.mul_pos (by omega) hpos)
  have hwe : u.header.width = width file := by rw [hu]; rfl
  have hhe : u.header.height = height file := by rw [hu]; rfl
  unfold Model.Crn.Unity.unpackLevel2
  rw [hwe, hhe, shrU_ok (by decide), shrU_ok (by decide), Nat.shiftRight_zero, Nat.shiftRight_zero,
    Res.lift_ok, Res.ok_bind, Res.lift_ok, Res.ok_bind, addU_ok (by omega), addU_ok (by omega),
    Res.lift_ok, Res.ok_bind, Res.lift_ok, Res.ok_bind]
  refine .any fun _ => ?_
  split
  · exact .failed
  refine .any fun _ => .any fun _ => ?_
  split
  · exact .failed
  refine .any fun _ => ?_
  have hbx : (max (width file) 1 + 3) >>> 2 = blocksX file := by
    unfold blocksX blocksOf; rw [Nat.shiftRight_eq_div_pow]
  have hby : (max (height file) 1 + 3) >>> 2 = blocksY file := by
    unfold blocksY blocksOf; rw [Nat.shiftRight_eq_div_pow]
  rw [hbx, hby, bytesPerBlock_words hk, Nat.mul_comm (blocksX file), unpackFormat_panic hu hk hx hy hck hodd]
  intro a e
  cases e

/-- With overflow checks no file with an odd number of block columns is unpacked. -/
theorem unityCrunchUnpackLevel_odd {file : List UInt8} (h74 : 74 ≤ file.length)
    (hhb : headerBytes file ≤ file.length) (hok : HeaderOk file file.length)
    (hk : Known (format file)) (hck : Build.overflowChecks = true) (hodd : blocksX file % 2 = 1) :
    After (fun _ => False) (unityCrunchUnpackLevel file file.length 0) := by
  unfold unityCrunchUnpackLevel
  rw [textureInfo_ok h74 rfl hhb hok (by unfold Known at hk; omega), Res.lift_ok, Res.ok_bind]
  simp only
  rw [if_neg (by simp)]
  have hw : width file < 2 ^ 16 := be_lt file _ 2
  have hh : height file < 2 ^ 16 := be_lt file _ 2
  rw [shrU_ok (by decide), shrU_ok (by decide), Nat.shiftRight_zero, Nat.shiftRight_zero]
  refine .seq (uUnpackBegin_header h74 hhb) fun u hu => ?_
  rw [Res.lift_ok, Res.ok_bind, Res.lift_ok, Res.ok_bind, addU_ok (by omega), addU_ok (by omega),
    Res.lift_ok, Res.ok_bind, Res.lift_ok, Res.ok_bind]
  have hbx : max 1 ((max 1 (width file) + 3) >>> 2) = blocksX file := by
    unfold blocksX blocksOf
    rw [Nat.shiftRight_eq_div_pow]
    omega
  rw [hbx]
  refine .seq uBytesPerDxtBlock_eq fun b hb => .seq (.lift (mulU_checked hck)) fun p hp => .any fun t =>
    .seq (Q := fun _ => False) ?_ fun _ h => h.elim
  subst hb hp
  unfold Model.Crn.Unity.unpackLevel
  split
  · exact .failed
  refine .any fun _ => .any fun _ => ?_
  split
  · exact .failed
  exact .any fun _ => .any fun _ => unityUnpackLevel2_odd hu hk hck hodd

end Verif.Proofs.Crn.Unity
