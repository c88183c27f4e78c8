import Verif.Proofs.Crn.UnityKinds
import Verif.Proofs.Crn.UnityEtcKinds

/-!
# Unity's variant of Crunch: the blocks of a level
-/

namespace Verif.Proofs.Crn.Unity

open Verif Verif.Model Verif.Model.Crn Verif.Model.Crn.Unity Verif.Spec.Crn Verif.Spec.Crn.Unity

variable [Build]

omit [Build] in
theorem levelBlocks_bytes {β : Type} (d : β) (faces nx ny : Nat) (l : List β)
    (bytes : β → List UInt8) :
    (Spec.Crn.Unity.levelBlocks d faces nx ny l).map bytes
      = gridBytes faces nx ny (even nx) (even ny) (fun n => bytes (l.getD n d)) := by
  unfold Spec.Crn.Unity.levelBlocks gridBytes
  simp only [List.map_flatMap, List.map_map]
  rfl

omit [Build] in
theorem flat_div {r w x : Nat} (h : x < w) : (r * w + x) / w = r ∧ (r * w + x) % w = x := by
  rw [Nat.mul_comm r w, Nat.mul_add_div (by omega), Nat.mul_add_mod, Nat.mod_eq_of_lt h,
    Nat.div_eq_of_lt h]
  exact ⟨rfl, rfl⟩

/-- The loop over the blocks of a format with one colour per block. -/
theorem wholeLoop_ok {buf : List UInt8} {last : Nat} {faces nx ny w h words : Nat}
    (g : Grid faces nx ny w h) (hwords : words = 2 ∨ words = 4)
    (hbig : 4 * words * (faces * ny * nx + 2 * nx + 4) < 2 ^ 31)
    (hodd : Build.overflowChecks = false ∨ nx % 2 = 0)
    {code : List Nat} {dm : DataModel} (hm : TablesOk code dm) {kind : Kind}
    {planes : List Indices} {view : Idx → List Nat}
    {sview : Nat × Nat → List Nat} {Good : Idx → Prop} {SGood : Nat × Nat → Prop}
    {bytes : List Nat → List Nat → List UInt8}
    (hk : KindOk buf last kind planes view sview Good SGood words bytes)
    {l : List Block} {bits rest : List Bool}
    (hl : grow (Spec.Crn.Unity.block code planes w) (faces * h * w) [] bits = some (l, rest))
    {c : Codec} (hc : At buf last c bits) :
    ∃ st', loop 1 words faces (4 * words * nx) nx ny (Model.Crn.Unity.block kind dm words nx ny) c
        (List.replicate (4 * words * (faces * ny * nx)) 0) = .ok st' ∧
      st'.dst = ((Spec.Crn.Unity.levelBlocks {} faces nx ny l).map
        fun b => bytes b.endpoint b.selector).flatten ∧
      st'.dst.length = 4 * words * (faces * ny * nx) := by
  obtain ⟨hlen, bs, hb0, hbs⟩ := grow_steps hl
  have hw0 : 0 < w := by have := g.width; have := g.nxPos; unfold even at *; omega
  have heven : w % 2 = 0 := by have := g.width; unfold even at this; omega
  have hreads : ∀ k b, l[k]? = some b → Reads code planes w l k b (bs k) (bs (k + 1)) :=
    fun k b hb => block_reads hw0 (List.getElem?_eq_some_iff.mp hb).1 (hbs k b hb)
  have ok : StepOk faces nx ny w h words (Model.Crn.Unity.block kind dm words nx ny)
      (Core buf last planes view Good w l bs)
      (fun n => bytes (l.getD n {}).endpoint (l.getD n {}).selector) := by
    refine ⟨fun n st p h => ⟨h.codec, h.good, h.cur, h.len, h.win, h.group⟩, ?_⟩
    intro f y x st hf hy hx hcore hpos hroom hdst
    obtain ⟨hd, hmod⟩ := flat_div (r := f * h + y) hx
    have hn : (f * h + y) * w + x < l.length := by
      rw [hlen]; exact flat_lt (flat_lt hf hy) hx
    have hb : l[(f * h + y) * w + x]? = some (l.getD ((f * h + y) * w + x) {}) := by
      rw [List.getD_eq_getElem?_getD, List.getElem?_eq_getElem hn]; rfl
    have key := block_ok hm (by omega) hk hw0 heven hreads hb hcore (y := y) (ow := nx) (oh := ny)
      (by rw [hd]; exact (g.row hf hy).2.1.symm) hpos (by rw [hmod]; exact hroom) hdst
    rw [hmod] at key
    exact key
  have := loop_ok (bufW := 1) g hwords hbig (Or.inl rfl) hodd ok (c := c) (fun dst => by
    refine ⟨hb0 ▸ hc, hk.zero.1, by rw [hk.zero.2]; rfl, by simp, ?_, ?_⟩
    · intro m _ hm'
      rw [Nat.zero_add] at hm'
      refine ⟨{}, ?_, hk.zero.1, ?_, ?_⟩
      · rw [Nat.mod_eq_of_lt hm', List.getElem?_replicate, if_pos (by omega)]
      · unfold aboveOf; rw [if_pos hm']; exact hk.zero.2
      · rw [Nat.div_eq_of_lt hm']; intro h; simp at h
    · intro _ h; simp at h)
  rw [levelBlocks_bytes, ← g.width, ← g.height]
  exact this

/-- The loop over the blocks of a format with two colours per block. -/
theorem halfLoop_ok {buf : List UInt8} {last : Nat} {faces nx ny w h words : Nat}
    (g : Grid faces nx ny w h) (hwords : words = 2 ∨ words = 4)
    (hbig : 4 * words * (faces * ny * nx + 2 * nx + 4) < 2 ^ 31)
    (hodd : Build.overflowChecks = false ∨ nx % 2 = 0)
    {u : Unpacker} {code : List Nat} (hm : TablesOk code u.tables.encoding) {kind : Kind}
    {write : EtcWrite} {colour : Indices} {others : List Indices} {view : Idx → List Nat}
    {sview : Nat × Nat → List Nat} {Good : Idx → Prop} {SGood : Nat × Nat → Prop}
    {bytes : EtcBlock → List UInt8}
    (hk : EtcKindOk buf last u kind write colour others view sview Good SGood words bytes)
    {l : List EtcBlock} {bits rest : List Bool}
    (hl : grow (Spec.Crn.Unity.etcBlock code colour others w) (faces * h * w) [] bits
      = some (l, rest))
    {c : Codec} (hc : At buf last c bits) :
    ∃ st', loop 2 words faces (4 * words * nx) nx ny
        (Model.Crn.Unity.etcBlock u kind write words nx ny) c
        (List.replicate (4 * words * (faces * ny * nx)) 0) = .ok st' ∧
      st'.dst = ((Spec.Crn.Unity.levelBlocks {} faces nx ny l).map bytes).flatten ∧
      st'.dst.length = 4 * words * (faces * ny * nx) := by
  obtain ⟨hlen, bs, hb0, hbs⟩ := grow_steps hl
  have hw0 : 0 < w := by have := g.width; have := g.nxPos; unfold even at *; omega
  have ok : StepOk faces nx ny w h words (Model.Crn.Unity.etcBlock u kind write words nx ny)
      (EtcCore buf last ((colour :: others).map fun _ => 0) view Good w l bs)
      (fun n => bytes (l.getD n {})) := by
    refine ⟨fun n st p h => ⟨h.codec, h.good, h.cur, h.goodDiag, h.diag, h.len, h.win⟩, ?_⟩
    intro f y x st hf hy hx hcore hpos hroom hdst
    obtain ⟨hd, hmod⟩ := flat_div (r := f * h + y) hx
    have hn : (f * h + y) * w + x < l.length := by
      rw [hlen]; exact flat_lt (flat_lt hf hy) hx
    have hb : l[(f * h + y) * w + x]? = some (l.getD ((f * h + y) * w + x) {}) := by
      rw [List.getD_eq_getElem?_getD, List.getElem?_eq_getElem hn]; rfl
    have key := etcBlock_ok hm (by omega) hk hw0 hb (etcBlock_reads hw0 hn (hbs _ _ hb)) hcore
      (y := y) (ow := nx) (oh := ny)
      (by rw [hd]; exact (g.row hf hy).2.1.symm) hpos (by rw [hmod]; exact hroom) hdst
    rw [hmod] at key
    exact key
  have := loop_ok (bufW := 2) g hwords hbig (Or.inr rfl) hodd ok (c := c) (fun dst => by
    refine ⟨hb0 ▸ hc, hk.zero.1, by rw [hk.zero.2]; rfl, hk.zero.1, ?_, by simp, ?_⟩
    · rw [hk.zero.2]; unfold etcDiagonal; rw [if_pos (by omega)]
    · intro m _ hm'
      rw [Nat.zero_add] at hm'
      refine ⟨{}, {}, ?_, ?_, hk.zero.1, hk.zero.1, ?_, ?_, ?_⟩
      · rw [Nat.mod_eq_of_lt hm', List.getElem?_replicate, if_pos (by omega)]
      · rw [Nat.mod_eq_of_lt hm', List.getElem?_replicate, if_pos (by omega)]
      · unfold etcAbove; rw [if_pos hm']; exact hk.zero.2
      · unfold etcAboveLast; rw [if_pos hm']; exact hk.zero.2
      · rw [Nat.div_eq_of_lt hm']; intro h; simp at h)
  rw [levelBlocks_bytes, ← g.width, ← g.height]
  exact this

/-- With overflow checks an odd number of block columns makes the loop panic before the first
block. -/
theorem loop_panic {bufW words faces nx ny : Nat} (hwords : words = 2 ∨ words = 4)
    (hnx : nx < 2 ^ 15) (hny : ny < 2 ^ 15) (hck : Build.overflowChecks = true) (hodd : nx % 2 = 1)
    (step : Nat → Nat → UState → Res UState) (c : Codec) (dst : List UInt8) :
    loop bufW words faces (4 * words * nx) nx ny step c dst = .panic := by
  have hw : (nx + 1) &&& 0xFFFFFFFE = nx + 1 := by
    rw [even_and (by omega)]; omega
  have hsh : shlU 32 (nx + 1) (words / 2) = .ok (words * (nx + 1)) := by
    rcases hwords with rfl | rfl
    · rw [shlU_ok (by omega), Nat.shiftLeft_eq, Nat.mod_eq_of_lt (by omega), Nat.mul_comm]
    · rw [shlU_ok (by omega), Nat.shiftLeft_eq, Nat.mod_eq_of_lt (by omega), Nat.mul_comm]
  have hpitch : (4 * words * nx) >>> 2 = words * nx := by
    rw [Nat.shiftRight_eq_div_pow, Nat.mul_assoc]
    exact Nat.mul_div_cancel_left _ (by omega)
  have hsub : subU 32 (words * nx) (words * (nx + 1)) = .panic := by
    unfold subU
    rw [if_neg (by rcases hwords with rfl | rfl <;> omega), hck]
    rfl
  unfold loop
  rw [addU_ok (by omega), Res.lift_ok, Res.ok_bind, addU_ok (by omega), Res.lift_ok, Res.ok_bind]
  simp only [hw]
  rw [hsh, Res.lift_ok, Res.ok_bind, hpitch, hsub, Res.lift_panic, Res.panic_bind]

end Verif.Proofs.Crn.Unity
