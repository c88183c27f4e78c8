import Verif.Proofs.Crn.AnyFile

/-!
# The size of the unpacked data, Unity's variant

As in `Verif/Proofs/Crn/AnyFile.lean`, nothing is assumed about the file.
-/

namespace Verif.Proofs.Crn.Unity

open Verif Verif.Model Verif.Model.Crn Verif.Model.Crn.Unity

variable [Build]

/-- The length of the destination. -/
abbrev UDstLen (n : Nat) (st : UState) : Prop := st.dst.length = n

theorem reference_keeps {msg : String} {dm : DataModel} {y x n : Nat} {st : UState}
    (h : UDstLen n st) : After (fun r => UDstLen n r.2) (reference msg dm y x st) := by
  unfold reference
  refine .any fun _ => .any fun _ => ?_
  split
  · exact .ok h
  · exact .any fun _ => .ok h

theorem endpoints_keeps {kind : Kind} {x ref n : Nat} {st : UState} (h : UDstLen n st) :
    After (UDstLen n) (endpoints kind x ref st) := by
  unfold endpoints
  refine .any fun _ => ?_
  split
  · exact .any fun _ => .any fun _ => .ok h
  split
  · exact .any fun _ => .ok h
  · exact .ok h

/-- The write of a kind of block keeps the length. -/
abbrev KindKeeps (kind : Kind) : Prop := ∀ i s pd (l : List UInt8),
  AfterOut (fun l' => l'.length = l.length) (kind.write i s pd l)

theorem block_keeps {kind : Kind} (hk : KindKeeps kind) {dm : DataModel} {words ow oh y x n : Nat}
    {st : UState} (h : UDstLen n st) : After (UDstLen n) (block kind dm words ow oh y x st) := by
  unfold block
  refine .seq (reference_keeps h) fun _ h => .seq (endpoints_keeps h) fun _ h => .any fun _ =>
    .seq (Q := fun l : List UInt8 => l.length = n) (.lift ?_) fun _ h => .any fun _ => .ok h
  split
  · exact h ▸ hk _ _ _ _
  · exact .ok h

theorem etcReference_keeps {msg : String} {dm : DataModel} {y x n : Nat} {st : UState}
    (h : UDstLen n st) : After (fun r => UDstLen n r.2) (etcReference msg dm y x st) := by
  unfold etcReference
  refine .any fun _ => ?_
  split
  · exact .ok h
  · exact .any fun _ => .any fun _ => .ok h

theorem etcEndpoints_keeps {kind : Kind} {x ref n : Nat} {st : UState} (h : UDstLen n st) :
    After (UDstLen n) (etcEndpoints kind x ref st) := by
  unfold etcEndpoints
  refine .any fun _ => ?_
  split
  · exact .any fun _ => .any fun _ => .ok h
  split
  · exact .any fun _ => .ok h
  split
  · exact .any fun _ => .ok h
  · exact .ok h

/-- The write of a block with subblocks keeps the length. -/
abbrev EtcKeeps (w : EtcWrite) : Prop := ∀ e0 e1 a flip s pd (l : List UInt8),
  AfterOut (fun l' => l'.length = l.length) (w e0 e1 a flip s pd l)

theorem etcBlock_keeps {u : Crn.Unpacker} {kind : Kind} {write : EtcWrite} (hk : EtcKeeps write)
    {words ow oh y x n : Nat} {st : UState} (h : UDstLen n st) :
    After (UDstLen n) (etcBlock u kind write words ow oh y x st) := by
  unfold etcBlock
  refine .seq (etcReference_keeps h) fun _ h => .seq (etcEndpoints_keeps h) fun _ h => .any fun _ =>
    .any fun _ => .any fun _ => .any fun _ => .any fun _ => .any fun _ =>
    .seq (Q := fun l : List UInt8 => l.length = n) (.lift ?_) fun _ h => .any fun _ => .ok h
  split
  · exact h ▸ hk _ _ _ _ _ _ _
  · exact .ok h

theorem loop_keeps {b words faces pitch ow oh n : Nat} {step : Nat → Nat → UState → Res UState}
    {k : Codec} {dst : List UInt8} (h : dst.length = n)
    (hs : ∀ y x st, UDstLen n st → After (UDstLen n) (step y x st)) :
    After (UDstLen n) (loop b words faces pitch ow oh step k dst) := by
  unfold loop
  refine .any fun _ => .any fun _ => .any fun _ => .any fun _ => .any fun _ =>
    .forRange h fun _ _ h => .forRange h fun _ _ h => ?_
  exact .seq (Q := UDstLen n) (.forRange h fun _ _ h => hs _ _ _ h) fun _ h => .any fun _ => .ok h

theorem writeAlphaWords_keeps {u : Crn.Unpacker} {e f pd n : Nat} {l : List UInt8}
    (h : l.length = n) : AfterOut (fun l => l.length = n) (writeAlphaWords u e f pd l) := by
  unfold writeAlphaWords
  exact .any fun _ => .any fun _ => .any fun _ => .any fun _ => .seq (writeInt_keeps h) fun _ h =>
    .any fun _ => .any fun _ => .any fun _ => .any fun _ => writeInt_keeps h

theorem writeBytes4_keeps {l b : List UInt8} {pd n : Nat} (h : l.length = n) :
    AfterOut (fun l => l.length = n) (writeBytes4 l pd b) := by
  unfold writeBytes4
  exact .any fun _ => .any fun _ => .seq (setIdx_keeps h) fun _ h => .any fun _ => .any fun _ =>
    .seq (setIdx_keeps h) fun _ h => .any fun _ => .any fun _ => .seq (setIdx_keeps h) fun _ h =>
    .any fun _ => .any fun _ => setIdx_keeps h

theorem dxt1Kind_keeps {u : Crn.Unpacker} : KindKeeps (dxt1Kind u) := by
  intro i s pd l
  show AfterOut _ (_ >>= _)
  exact .any fun _ => .seq (writeInt_keeps rfl) fun _ h => .any fun _ => .any fun _ =>
    writeInt_keeps h

theorem dxt5Kind_keeps {u : Crn.Unpacker} : KindKeeps (dxt5Kind u) := by
  intro i s pd l
  show AfterOut _ (_ >>= _)
  exact .any fun _ => .seq (writeAlphaWords_keeps rfl) fun _ h => .any fun _ => .any fun _ =>
    .seq (writeInt_keeps h) fun _ h => .any fun _ => .any fun _ => writeInt_keeps h

theorem dxt5aKind_keeps {u : Crn.Unpacker} : KindKeeps (dxt5aKind u) := by
  intro i s pd l
  show AfterOut _ (_ >>= _)
  exact .any fun _ => writeAlphaWords_keeps rfl

theorem dxnKind_keeps {u : Crn.Unpacker} : KindKeeps (dxnKind u) := by
  intro i s pd l
  show AfterOut _ (_ >>= _)
  exact .any fun _ => .any fun _ => .seq (writeAlphaWords_keeps rfl) fun _ h => .any fun _ =>
    writeAlphaWords_keeps h

theorem etc1Write_keeps {u : Crn.Unpacker} : EtcKeeps (etc1Write u) := by
  intro e0 e1 a flip s pd l
  unfold etc1Write writeEtcColour
  exact .any fun _ => .seq (writeBytes4_keeps rfl) fun _ h => .any fun _ => .any fun _ =>
    writeInt_keeps h

theorem etc2aWrite_keeps {u : Crn.Unpacker} : EtcKeeps (etc2aWrite u) := by
  intro e0 e1 a flip s pd l
  unfold etc2aWrite
  exact .any fun _ => .any fun _ => .any fun _ => .seq (writeAlphaWords_keeps rfl) fun _ h =>
    .any fun _ => .seq (writeBytes4_keeps h) fun _ h => .any fun _ => .any fun _ => writeInt_keeps h

theorem uUnpackFormat_keeps {u : Crn.Unpacker} {pitch bx by' n : Nat} {k : Codec} {dst : List UInt8}
    (h : dst.length = n) : After (UDstLen n) (Unity.unpackFormat u pitch bx by' k dst) := by
  unfold Unity.unpackFormat
  dsimp only
  split
  · exact loop_keeps h fun _ _ _ h => block_keeps dxt1Kind_keeps h
  split
  · exact loop_keeps h fun _ _ _ h => block_keeps dxt5Kind_keeps h
  split
  · exact loop_keeps h fun _ _ _ h => block_keeps dxt5aKind_keeps h
  split
  · exact loop_keeps h fun _ _ _ h => block_keeps dxnKind_keeps h
  split
  · exact loop_keeps h fun _ _ _ h => etcBlock_keeps etc1Write_keeps h
  split
  · exact loop_keeps h fun _ _ _ h => etcBlock_keeps etc2aWrite_keeps h
  · exact .failed

theorem uUnpackLevel2_len {u : Crn.Unpacker} {src : List UInt8} {srcSize dstSize pitch level : Nat} :
    After (fun l => l.length ≤ dstSize * u.header.faces)
      (Unity.unpackLevel2 u src srcSize dstSize pitch level) := by
  unfold Unity.unpackLevel2
  refine .any fun _ => .any fun _ => .any fun _ => .any fun _ => .any fun _ => ?_
  split
  · exact .failed
  refine .seq (.lift mulU_ok_le) fun size hs => .any fun _ => ?_
  split
  · exact .failed
  refine .any fun _ => .seq (Q := UDstLen size) ?_ fun _ h => .ok ?_
  · exact uUnpackFormat_keeps (List.length_replicate ..)
  · exact h ▸ hs

theorem uUnpackLevel_len {u : Crn.Unpacker} {dstSize pitch level : Nat} :
    After (fun l => l.length ≤ dstSize * u.header.faces) (Unity.unpackLevel u dstSize pitch level) := by
  unfold Unity.unpackLevel
  split
  · exact .failed
  refine .any fun _ => .any fun _ => ?_
  split
  · exact .failed
  exact .any fun _ => .any fun _ => uUnpackLevel2_len

/-- Unpacking starts with the header of the file. -/
theorem uUnpackBegin_header {file : List UInt8} (h74 : 74 ≤ file.length)
    (hhb : Spec.Crn.headerBytes file ≤ file.length) :
    After (fun u => u.header = specHeader file) (Unity.unpackBegin file file.length) := by
  unfold Unity.unpackBegin
  rw [if_neg (by omega)]
  intro u e
  have e : init file file.length = .ok u := by
    cases e' : init file file.length with
    | ok a => rw [e'] at e; exact e
    | fail m => rw [e'] at e; cases e
    | panic => rw [e'] at e; cases e
  revert e
  unfold init
  rw [crndGetHeader_ok h74 hhb, Res.lift_ok, Res.ok_bind]
  split
  · exact fun e => nomatch e
  next hh =>
  split at hh
  · cases hh
    exact (After.any fun _ => .any fun _ => .any fun _ => .ok rfl :
      After (fun u : Crn.Unpacker => u.header = specHeader file) _) u
  · cases hh

theorem uBytesPerDxtBlock_eq {n : Nat} :
    After (fun b => b = Spec.Crn.bytesPerBlock n) (Unity.bytesPerDxtBlock (crnFormatOf n)) := by
  intro b e
  by_cases h : n < 16
  · match n, h with
    | 0, _ | 1, _ | 2, _ | 3, _ | 4, _ | 5, _ | 6, _ | 7, _ | 8, _ | 9, _ | 10, _ | 11, _ | 12, _
    | 13, _ | 14, _ => cases e; rfl
    | 15, _ => cases e
  · rw [crnFormatOf_invalid.mpr (by omega)] at e
    cases e

/-- Whatever the file holds: the number of bytes of the unpacked blocks. -/
theorem unityCrunchUnpackLevel_any {file : List UInt8} (h74 : 74 ≤ file.length)
    (hhb : Spec.Crn.headerBytes file ≤ file.length)
    (hok : Spec.Crn.HeaderOk file file.length) (hf : Spec.Crn.format file ≤ 15) :
    After (fun r => r.format = crnFormatOf (Spec.Crn.format file) ∧
      r.dxtData.length ≤ Spec.Crn.bytesPerBlock (Spec.Crn.format file) *
        (Spec.Crn.faces file * Spec.Crn.blocksY file * Spec.Crn.blocksX file))
      (unityCrunchUnpackLevel file file.length 0) := by
  unfold unityCrunchUnpackLevel
  rw [textureInfo_ok h74 rfl hhb hok hf, Res.lift_ok, Res.ok_bind]
  simp only
  rw [if_neg (by simp)]
  have hw : Spec.Crn.width file < 2 ^ 16 := be_lt file _ 2
  have hh : Spec.Crn.height file < 2 ^ 16 := be_lt file _ 2
  rw [shrU_ok (by decide), shrU_ok (by decide), Nat.shiftRight_zero, Nat.shiftRight_zero]
  refine .seq (uUnpackBegin_header h74 hhb) fun u hu => ?_
  rw [Res.lift_ok, Res.ok_bind, Res.lift_ok, Res.ok_bind, addU_ok (by omega), addU_ok (by omega),
    Res.lift_ok, Res.ok_bind, Res.lift_ok, Res.ok_bind]
  have hbx : max 1 ((max 1 (Spec.Crn.width file) + 3) >>> 2) = Spec.Crn.blocksX file := by
    unfold Spec.Crn.blocksX Spec.Crn.blocksOf
    rw [Nat.shiftRight_eq_div_pow]
    omega
  have hby : max 1 ((max 1 (Spec.Crn.height file) + 3) >>> 2) = Spec.Crn.blocksY file := by
    unfold Spec.Crn.blocksY Spec.Crn.blocksOf
    rw [Nat.shiftRight_eq_div_pow]
    omega
  rw [hbx, hby]
  refine .seq uBytesPerDxtBlock_eq fun b hb => .seq (.lift mulU_ok_le) fun p hp =>
    .seq (.lift mulU_ok_le) fun t ht => .seq uUnpackLevel_len fun l hl => .ok ⟨rfl, ?_⟩
  rw [hu] at hl
  subst hb
  refine Nat.le_trans hl (Nat.le_trans (Nat.mul_le_mul_right _ (Nat.le_trans ht
    (Nat.mul_le_mul_right _ hp))) (Nat.le_of_eq ?_))
  show _ * _ * _ * Spec.Crn.faces file = _
  ac_rfl

end Verif.Proofs.Crn.Unity
