import Verif.Proofs.Builds.All
import Verif.Props.Bc6
import Verif.Props.Crunch
import Verif.Props.CrnSizes
import Verif.Props.AstcLocality

/-!
# Property C72: overflow checks only turn results into panics
-/

namespace Verif.Props

open Verif Verif.Model Verif.Proofs.Builds

theorem ofBuilds {α : Type} {f : Build → Out α} (h : LeO (f Build.debug) (f Build.release)) {r : α}
    (hd : f Build.debug = .ok r) (b : Build) : f b = .ok r := by
  obtain ⟨ck⟩ := b
  cases ck
  · rcases h with h | h
    · rw [hd] at h
      cases h
    · exact h.symm.trans hd
  · exact hd

/-- **C72** What a function returns in a build with overflow checks, `Ok` or an error, it returns in
every build, with the same image. Nothing is assumed about the data, the sizes or the image buffer. -/
theorem C72_all_functions (fn : PyFn) (data : List UInt8) (w h : Nat) (image image' : List UInt32)
    (res : Except String Unit) (hd : @rustFn Build.debug fn data w h image = .ok (res, image'))
    (b : Build) : @rustFn b fn data w h image = .ok (res, image') :=
  ofBuilds (f := fun b => @rustFn b fn data w h image) rustFn_builds hd b

/-- **C72** `decode_astc` with any block size. -/
theorem C72_astc_any_block_size (data : List UInt8) (w h bw bh : Nat) (image image' : List UInt32)
    (res : Except String Unit)
    (hd : @decodeAstc Build.debug data w h bw bh image = .ok (res, image')) (b : Build) :
    @decodeAstc b data w h bw bh image = .ok (res, image') :=
  ofBuilds (f := fun b => @decodeAstc b data w h bw bh image) decodeAstc_builds hd b

/-- **C72** A call that panics in some build panics in a build with overflow checks. -/
theorem C72_panics (fn : PyFn) (data : List UInt8) (w h : Nat) (image : List UInt32) (b : Build)
    (hp : @rustFn b fn data w h image = .panic) : @rustFn Build.debug fn data w h image = .panic := by
  cases e : @rustFn Build.debug fn data w h image with
  | panic => rfl
  | ok r => rw [C72_all_functions fn data w h image r.2 r.1 e b] at hp; cases hp

/-- **C72** The block formats on targets with a 32-bit `usize`. -/
theorem C72_32bit (fmt : Spec.Format) (data : List UInt8) (w h : Nat) (image image' : List UInt32)
    (res : Except String Unit) (hd : @decoder32 Build.debug fmt data w h image = .ok (res, image'))
    (b : Build) : @decoder32 b fmt data w h image = .ok (res, image') :=
  ofBuilds (f := fun b => @decoder32 b fmt data w h image) decoder32_builds hd b

/-- **C72** PVRTC on targets with a 32-bit `usize`. -/
theorem C72_32bit_pvrtc (is2 : Bool) (data : List UInt8) (w h : Nat) (image image' : List UInt32)
    (res : Except String Unit)
    (hd : @decodePvrtc32 Build.debug data w h image is2 = .ok (res, image')) (b : Build) :
    @decodePvrtc32 b data w h image is2 = .ok (res, image') :=
  ofBuilds (f := fun b => @decodePvrtc32 b data w h image is2) decodePvrtc32_builds hd b

/-- **C72** Crunch on targets with a 32-bit `usize`. -/
theorem C72_32bit_crunch (data : List UInt8) (w h : Nat) (image image' : List UInt32)
    (res : Except String Unit)
    (hd : @decodeCrunch32 Build.debug data w h image = .ok (res, image')) (b : Build) :
    @decodeCrunch32 b data w h image = .ok (res, image') :=
  ofBuilds (f := fun b => @decodeCrunch32 b data w h image) decodeCrunch32_builds hd b

/-- **C72** Unity's variant of Crunch on targets with a 32-bit `usize`. -/
theorem C72_32bit_unity_crunch (data : List UInt8) (w h : Nat) (image image' : List UInt32)
    (res : Except String Unit)
    (hd : @decodeUnityCrunch32 Build.debug data w h image = .ok (res, image')) (b : Build) :
    @decodeUnityCrunch32 b data w h image = .ok (res, image') :=
  ofBuilds (f := fun b => @decodeUnityCrunch32 b data w h image) decodeUnityCrunch32_builds hd b

/-- A malformed ASTC block that decodes in a build with overflow checks. -/
example : ∃ out, ∀ b, @rustFn b .astc4x4 (astcOverlong ++ List.replicate 20 0) 4 4
    (List.replicate 16 0) = .ok (.ok (), out) := by
  obtain ⟨o, e⟩ := C66_trailing_violated.2.2.1
  exact ⟨o, C72_all_functions .astc4x4 _ 4 4 _ o _ e⟩

/-- A Crunch file cut to 70 bytes: the same error in every build. -/
example (b : Build) : @rustFn b .crunch (CrnDemo.crnDxt1.take 70) 12 9 [1, 2, 3] =
    .ok (.error "Invalid crunch texture encoding.", [1, 2, 3]) :=
  C72_all_functions .crunch (CrnDemo.crnDxt1.take 70) 12 9 [1, 2, 3] _ _ (@C54_refused Build.debug (CrnDemo.crnDxt1.take 70)
    (by decide +kernel) (.inl (by decide +kernel)) 12 9 [1, 2, 3]) b

/-- The converse fails: a BC6H block of mode 15 panics with overflow checks and decodes without. -/
theorem C72_not_conversely :
    @rustFn Build.debug .bc6Unsigned bc6Mode15 4 4 (List.replicate 16 0) = .panic ∧
    ∃ out, @rustFn Build.release .bc6Unsigned bc6Mode15 4 4 (List.replicate 16 0) =
      .ok (.ok (), out) := by
  refine ⟨rfl, ?_⟩
  obtain ⟨o, e, _⟩ := (C47_bc6_release_as_is false).success bc6Mode15 4 4 (List.replicate 16 0)
    ⟨by decide, by decide, by decide⟩ (by decide) (by decide) (fun _ _ => trivial)
  exact ⟨o, e⟩

end Verif.Props
