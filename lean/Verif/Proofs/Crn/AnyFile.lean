import Verif.Model.Crunch
import Verif.Model.UnityCrunch
import Verif.Proofs.CrnHeader
import Verif.Proofs.Loops
import Verif.Spec.CrnFile

/-!
# The size of the unpacked data

Nothing is assumed about the file: whatever its contents are, if unpacking succeeds, then the buffer
of DXT blocks has the size that it was created with.
-/

namespace Verif.Proofs.Crn

open Verif Verif.Model Verif.Model.Crn

/-- What holds of the value if there is one. -/
def After {α : Type} (P : α → Prop) (x : Res α) : Prop := ∀ a, x = .ok a → P a

/-- The same for code that cannot fail. -/
def AfterOut {α : Type} (P : α → Prop) (x : Out α) : Prop := ∀ a, x = .ok a → P a

theorem After.any {α β : Type} {P : β → Prop} {x : Res α} {f : α → Res β}
    (h : ∀ a, After P (f a)) : After P (x >>= f) := by
  intro b e
  obtain ⟨a, _, e⟩ := Res.bind_eq_ok.mp e
  exact h a b e

theorem After.seq {α β : Type} {P : β → Prop} {Q : α → Prop} {x : Res α} {f : α → Res β}
    (h1 : After Q x) (h2 : ∀ a, Q a → After P (f a)) : After P (x >>= f) := by
  intro b e
  obtain ⟨a, ea, e⟩ := Res.bind_eq_ok.mp e
  exact h2 a (h1 a ea) b e

theorem After.lift {α : Type} {P : α → Prop} {x : Out α} (h : AfterOut P x) :
    After P (liftM x : Res α) := fun a e => h a (Res.lift_eq_ok.mp e)

theorem After.ok {α : Type} {P : α → Prop} {a : α} (h : P a) : After P (pure a : Res α) := by
  intro b e
  rw [Res.pure_eq, Res.ok.injEq] at e
  exact e ▸ h

theorem After.failed {α : Type} {P : α → Prop} {m : String} : After P (Res.fail m : Res α) := by
  intro b e; cases e

theorem After.forRange {σ : Type} {n : Nat} {f : Nat → σ → Res σ} {s : σ} {P : σ → Prop} (h0 : P s)
    (h : ∀ i s, P s → After P (f i s)) : After P (Res.forRange n f s) := by
  induction n with
  | zero => exact After.ok h0
  | succ n ih => exact After.seq ih (fun a ha => h n a ha)

theorem AfterOut.any {α β : Type} {P : β → Prop} {x : Out α} {f : α → Out β}
    (h : ∀ a, AfterOut P (f a)) : AfterOut P (x >>= f) := by
  intro b e
  obtain ⟨a, _, e⟩ := Out.bind_eq_ok.mp e
  exact h a b e

theorem AfterOut.seq {α β : Type} {P : β → Prop} {Q : α → Prop} {x : Out α} {f : α → Out β}
    (h1 : AfterOut Q x) (h2 : ∀ a, Q a → AfterOut P (f a)) : AfterOut P (x >>= f) := by
  intro b e
  obtain ⟨a, ea, e⟩ := Out.bind_eq_ok.mp e
  exact h2 a (h1 a ea) b e

theorem AfterOut.ok {α : Type} {P : α → Prop} {a : α} (h : P a) : AfterOut P (pure a : Out α) := by
  intro b e
  have e : Out.ok a = .ok b := e
  rw [Out.ok.injEq] at e
  exact e ▸ h

variable [Build]

theorem setIdx_keeps {l : List UInt8} {i : Nat} {a : UInt8} {n : Nat} (h : l.length = n) :
    AfterOut (fun l => l.length = n) (setIdx l i a) := by
  intro l' e
  unfold setIdx at e
  split at e
  · cases e; simpa using h
  · cases e

theorem writeInt_keeps {l : List UInt8} {i v n : Nat} (h : l.length = n) :
    AfterOut (fun l => l.length = n) (writeInt l i v) := by
  unfold writeInt
  exact .any fun _ => .seq (setIdx_keeps h) fun _ h => .any fun _ => .seq (setIdx_keeps h) fun _ h =>
    .any fun _ => .seq (setIdx_keeps h) fun _ h => .any fun _ => setIdx_keeps h

theorem writeAlpha_keeps {u : Crn.Unpacker} {e p pd n : Nat} {l : List UInt8} (h : l.length = n) :
    AfterOut (fun l => l.length = n) (writeAlpha u e p pd l) := by
  unfold writeAlpha
  exact .any fun _ => .any fun _ => .any fun _ => .any fun _ => .seq (writeInt_keeps h) fun _ h =>
    .any fun _ => .any fun _ => .any fun _ => .any fun _ => writeInt_keeps h

/-- The length of the destination. -/
abbrev DstLen (n : Nat) (st : LevelState) : Prop := st.dst.length = n

theorem nextEncoding_keeps {msg : String} {dm : DataModel} {st : LevelState} {n : Nat}
    (h : DstLen n st) : After (fun r => DstLen n r.2) (nextEncoding msg dm st) := by
  unfold nextEncoding
  refine .seq (Q := DstLen n) ?_ fun _ h => .ok h
  split
  · exact .any fun _ => .ok h
  · exact .ok h

theorem dxt1Block_keeps {u : Crn.Unpacker} {ends tiles : List Nat} {q pd n : Nat} {st : LevelState}
    (h : DstLen n st) : After (DstLen n) (dxt1Block u ends tiles q pd st) := by
  unfold dxt1Block
  exact .any fun _ => .any fun _ => .seq (.lift (writeInt_keeps h)) fun _ h => .any fun _ => .any fun _ =>
    .any fun _ => .seq (.lift (writeInt_keeps h)) fun _ h => .ok h

theorem dxt1Full_keeps {u : Crn.Unpacker} {z : LevelSize} {ends tiles : List Nat} {pd n : Nat}
    {st : LevelState} (h : DstLen n st) : After (DstLen n) (dxt1Full u z ends tiles pd st) := by
  unfold dxt1Full
  exact .seq (dxt1Block_keeps h) fun _ h => .any fun _ => .seq (dxt1Block_keeps h) fun _ h => .any fun _ =>
    .seq (dxt1Block_keeps h) fun _ h => .any fun _ => dxt1Block_keeps h

theorem dxt1Skip_keeps {u : Crn.Unpacker} {ends tiles : List Nat} {r b' : Bool} {bx b pd n : Nat}
    {st : LevelState} (h : DstLen n st) : After (DstLen n) (dxt1Skip u ends tiles r b' bx b pd st) := by
  unfold dxt1Skip
  refine .any fun _ => ?_
  dsimp only
  split
  · exact .any fun _ => .any fun _ => .seq (.lift (writeInt_keeps h)) fun _ h => .any fun _ =>
      .any fun _ => .seq (.lift (writeInt_keeps h)) fun _ h => .ok h
  · exact .ok h

theorem dxt1Border_keeps {u : Crn.Unpacker} {z : LevelSize} {ends tiles : List Nat} {r b' : Bool}
    {pd n : Nat} {st : LevelState} (h : DstLen n st) :
    After (DstLen n) (dxt1Border u z ends tiles r b' pd st) := by
  unfold dxt1Border
  refine .forRange h fun _ _ h => .any fun _ => .any fun _ => ?_
  exact .seq (Q := fun s => DstLen n s.2)
    (.forRange h fun _ _ h => .seq (dxt1Skip_keeps h) fun _ h => .any fun _ => .ok h) fun _ h => .ok h

theorem dxt1Chunk_keeps {u : Crn.Unpacker} {z : LevelSize} {x y pd n : Nat} {st : LevelState}
    (h : DstLen n st) : After (DstLen n) (dxt1Chunk u z x y pd st) := by
  unfold dxt1Chunk
  refine .any fun _ => .seq (nextEncoding_keeps h) fun _ h => .any fun _ => .any fun _ => .any fun _ =>
    .any fun _ => ?_
  split
  · exact dxt1Full_keeps h
  · exact dxt1Border_keeps h

theorem blockLoop_keeps {z : LevelSize} {words cb pd n : Nat} {r b : Bool}
    {block : Nat → Bool → Nat → LevelState → Res LevelState} {st : LevelState} (h : DstLen n st)
    (hb : ∀ q v pd st, DstLen n st → After (DstLen n) (block q v pd st)) :
    After (DstLen n) (blockLoop z words cb r b pd block st) := by
  unfold Crn.blockLoop
  refine .seq (Q := fun s => DstLen n s.2) (.forRange h fun _ _ h => ?_) fun _ h => .ok h
  refine .seq (Q := fun s => DstLen n s.2)
    (.forRange h fun _ _ h => .seq (hb _ _ _ _ h) fun _ h => .any fun _ => .ok h) fun _ h => ?_
  exact .any fun _ => .any fun _ => .any fun _ => .any fun _ => .ok h

theorem dxt5Block_keeps {u : Crn.Unpacker} {as cs tiles : List Nat} {q pd n : Nat} {v : Bool}
    {st : LevelState} (h : DstLen n st) : After (DstLen n) (dxt5Block u as cs tiles q v pd st) := by
  unfold dxt5Block
  refine .any fun _ => .any fun _ => ?_
  dsimp only
  split
  · exact .any fun _ => .any fun _ => .seq (.lift (writeAlpha_keeps h)) fun _ h => .any fun _ =>
      .any fun _ => .seq (.lift (writeInt_keeps h)) fun _ h => .any fun _ => .any fun _ =>
      .seq (.lift (writeInt_keeps h)) fun _ h => .ok h
  · exact .ok h

theorem dxt5Chunk_keeps {u : Crn.Unpacker} {z : LevelSize} {x y pd n : Nat} {st : LevelState}
    (h : DstLen n st) : After (DstLen n) (dxt5Chunk u z x y pd st) := by
  unfold dxt5Chunk
  exact .any fun _ => .seq (nextEncoding_keeps h) fun _ h => .any fun _ => .any fun _ => .any fun _ =>
    .any fun _ => .any fun _ => blockLoop_keeps h fun _ _ _ _ h => dxt5Block_keeps h

theorem dxt5aBlock_keeps {u : Crn.Unpacker} {es tiles : List Nat} {q pd n : Nat} {v : Bool}
    {st : LevelState} (h : DstLen n st) : After (DstLen n) (dxt5aBlock u es tiles q v pd st) := by
  unfold dxt5aBlock
  refine .any fun _ => ?_
  dsimp only
  split
  · exact .any fun _ => .any fun _ => .seq (.lift (writeAlpha_keeps h)) fun _ h => .ok h
  · exact .ok h

theorem dxt5aChunk_keeps {u : Crn.Unpacker} {z : LevelSize} {x y pd n : Nat} {st : LevelState}
    (h : DstLen n st) : After (DstLen n) (dxt5aChunk u z x y pd st) := by
  unfold dxt5aChunk
  exact .any fun _ => .seq (nextEncoding_keeps h) fun _ h => .any fun _ => .any fun _ => .any fun _ =>
    .any fun _ => blockLoop_keeps h fun _ _ _ _ h => dxt5aBlock_keeps h

theorem dxnBlock_keeps {u : Crn.Unpacker} {as cs tiles : List Nat} {q pd n : Nat} {v : Bool}
    {st : LevelState} (h : DstLen n st) : After (DstLen n) (dxnBlock u as cs tiles q v pd st) := by
  unfold dxnBlock
  refine .any fun _ => .any fun _ => ?_
  dsimp only
  split
  · exact .any fun _ => .any fun _ => .seq (.lift (writeAlpha_keeps h)) fun _ h => .any fun _ =>
      .any fun _ => .seq (.lift (writeAlpha_keeps h)) fun _ h => .ok h
  · exact .ok h

theorem dxnChunk_keeps {u : Crn.Unpacker} {z : LevelSize} {x y pd n : Nat} {st : LevelState}
    (h : DstLen n st) : After (DstLen n) (dxnChunk u z x y pd st) := by
  unfold dxnChunk
  exact .any fun _ => .seq (nextEncoding_keeps h) fun _ h => .any fun _ => .any fun _ => .any fun _ =>
    .any fun _ => .any fun _ => blockLoop_keeps h fun _ _ _ _ h => dxnBlock_keeps h

theorem chunkLoop_keeps {faces cx cy pitch cb n : Nat}
    {chunk : Nat → Nat → Nat → LevelState → Res LevelState} {st : LevelState} (h : DstLen n st)
    (hc : ∀ x y pd st, DstLen n st → After (DstLen n) (chunk x y pd st)) :
    After (DstLen n) (chunkLoop faces cx cy pitch cb chunk st) := by
  unfold chunkLoop
  refine .seq (Q := fun s => DstLen n s.2) (.forRange h fun _ _ h => .forRange h fun _ _ h => ?_)
    fun _ h => .ok h
  refine .any fun _ => .seq (Q := fun s => DstLen n s.2)
    (.forRange h fun _ _ h => .seq (hc _ _ _ _ h) fun _ h => .any fun _ => .ok h) fun _ h => ?_
  exact .any fun _ => .any fun _ => .ok h

theorem unpackFormat_keeps {u : Crn.Unpacker} {z : LevelSize} {n : Nat} {st : LevelState}
    (h : DstLen n st) : After (DstLen n) (unpackFormat u z st) := by
  unfold unpackFormat
  dsimp only
  split
  · exact chunkLoop_keeps h fun _ _ _ _ h => dxt1Chunk_keeps h
  split
  · exact chunkLoop_keeps h fun _ _ _ _ h => dxt5Chunk_keeps h
  split
  · exact chunkLoop_keeps h fun _ _ _ _ h => dxt5aChunk_keeps h
  split
  · exact chunkLoop_keeps h fun _ _ _ _ h => dxnChunk_keeps h
  · exact .failed

theorem mulU_ok_le {w a b : Nat} : AfterOut (fun c => c ≤ a * b) (mulU w a b) := by
  intro c e
  unfold mulU fitU at e
  split at e
  · cases e; omega
  · split at e
    · cases e
    · cases e; exact Nat.mod_le _ _

theorem unpackLevel2_len {u : Crn.Unpacker} {src : List UInt8} {srcSize dstSize pitch level : Nat} :
    After (fun l => l.length ≤ dstSize * u.header.faces)
      (unpackLevel2 u src srcSize dstSize pitch level) := by
  unfold unpackLevel2
  refine .any fun _ => .any fun _ => .any fun _ => .any fun _ => .any fun _ => ?_
  split
  · exact .failed
  refine .seq (.lift mulU_ok_le) fun size hs => .any fun _ => ?_
  split
  · exact .failed
  refine .any fun _ => .any fun _ => .any fun _ => .seq (Q := DstLen size) ?_ fun _ h => .ok ?_
  · exact unpackFormat_keeps (List.length_replicate ..)
  · exact h ▸ hs

theorem unpackLevel_len {u : Crn.Unpacker} {dstSize pitch level : Nat} :
    After (fun l => l.length ≤ dstSize * u.header.faces) (unpackLevel u dstSize pitch level) := by
  unfold unpackLevel
  split
  · exact .failed
  refine .any fun _ => .any fun _ => ?_
  split
  · exact .failed
  exact .any fun _ => .any fun _ => unpackLevel2_len

/-- Unpacking starts with the header of the file. -/
theorem unpackBegin_header {file : List UInt8} (h74 : 74 ≤ file.length)
    (hhb : Spec.Crn.headerBytes file ≤ file.length) :
    After (fun u => u.header = specHeader file) (unpackBegin file file.length) := by
  unfold unpackBegin
  rw [if_neg (by omega)]
  intro u e
  have e : Crn.Unpacker.init file file.length = .ok u := by
    cases e' : Crn.Unpacker.init file file.length with
    | ok a => rw [e'] at e; exact e
    | fail m => rw [e'] at e; cases e
    | panic => rw [e'] at e; cases e
  revert e
  unfold Crn.Unpacker.init
  rw [crndGetHeader_ok h74 hhb, Res.lift_ok, Res.ok_bind]
  split
  · exact fun e => nomatch e
  next hh =>
  split at hh
  · cases hh
    exact (After.any fun _ => .any fun _ => .any fun _ => .ok rfl :
      After (fun u : Crn.Unpacker => u.header = specHeader file) _) u
  · cases hh

theorem bytesPerDxtBlock_eq {n : Nat} :
    After (fun b => b = Spec.Crn.bytesPerBlock n) (bytesPerDxtBlock (crnFormatOf n)) := by
  intro b e
  by_cases h : n < 16
  · match n, h with
    | 0, _ | 1, _ | 2, _ | 3, _ | 4, _ | 5, _ | 6, _ | 7, _ | 8, _ | 9, _ | 10, _ => cases e; rfl
    | 11, _ | 12, _ | 13, _ | 14, _ | 15, _ => cases e
  · rw [crnFormatOf_invalid.mpr (by omega)] at e
    cases e

/-- Whatever the file holds: the number of bytes of the unpacked blocks. -/
theorem crunchUnpackLevel_any {file : List UInt8} (h74 : 74 ≤ file.length)
    (hhb : Spec.Crn.headerBytes file ≤ file.length)
    (hok : Spec.Crn.HeaderOk file file.length) (hf : Spec.Crn.format file ≤ 15) :
    After (fun r => r.format = crnFormatOf (Spec.Crn.format file) ∧
      r.dxtData.length ≤ Spec.Crn.bytesPerBlock (Spec.Crn.format file) *
        (Spec.Crn.faces file * Spec.Crn.blocksY file * Spec.Crn.blocksX file))
      (crunchUnpackLevel file file.length 0) := by
  unfold crunchUnpackLevel
  rw [textureInfo_ok h74 rfl hhb hok hf, Res.lift_ok, Res.ok_bind]
  simp only
  rw [if_neg (by simp)]
  have hw : Spec.Crn.width file < 2 ^ 16 := be_lt file _ 2
  have hh : Spec.Crn.height file < 2 ^ 16 := be_lt file _ 2
  rw [shrU_ok (by decide), shrU_ok (by decide), Nat.shiftRight_zero, Nat.shiftRight_zero]
  refine .seq (unpackBegin_header h74 hhb) fun u hu => ?_
  rw [Res.lift_ok, Res.ok_bind, Res.lift_ok, Res.ok_bind, addU_ok (by omega), addU_ok (by omega),
    Res.lift_ok, Res.ok_bind, Res.lift_ok, Res.ok_bind]
  have hbx : max 1 ((max 1 (Spec.Crn.width file) + 3) >>> 2) = Spec.Crn.blocksX file := by
    unfold Spec.Crn.blocksX Spec.Crn.blocksOf
    rw [Nat.shiftRight_eq_div_pow]
    omega
  have hby : max 1 ((max 1 (Spec.Crn.height file) + 3) >>> 2) = Spec.Crn.blocksY file := by
    unfold Spec.Crn.blocksY Spec.Crn.blocksOf
    rw [Nat.shiftRight_eq_div_pow]
    omega
  rw [hbx, hby]
  refine .seq bytesPerDxtBlock_eq fun b hb => .seq (.lift mulU_ok_le) fun p hp =>
    .seq (.lift mulU_ok_le) fun t ht => .seq unpackLevel_len fun l hl => .ok ⟨rfl, ?_⟩
  rw [hu] at hl
  subst hb
  refine Nat.le_trans hl (Nat.le_trans (Nat.mul_le_mul_right _ (Nat.le_trans ht
    (Nat.mul_le_mul_right _ hp))) (Nat.le_of_eq ?_))
  show _ * _ * _ * Spec.Crn.faces file = _
  ac_rfl

end Verif.Proofs.Crn
