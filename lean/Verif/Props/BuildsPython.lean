import Verif.Props.Builds
import Verif.Props.PythonWrap

/-!
# Property C72 for the functions of the Python module
-/

namespace Verif.Props

open Verif Verif.Model Verif.Proofs Verif.Proofs.Builds

theorem pySize_builds {w h : Nat} :
    LeO (@pySize Build.debug w h) (@pySize Build.release w h) := by
  unfold pySize
  exact LeO.seq mulU_builds fun _ => mulU_builds

/-- What Python gets when the Rust function ended with `x`. -/
def pyOut (n : Nat) (x : Mem × Out (Except String Unit)) : Out PyResult :=
  match x with
  | (m, .ok (.ok _)) => .ok (.bytes (pyBytes n m.image))
  | (_, .ok (.error e)) => .ok (.valueError e)
  | (_, .panic) => .panic

/-- The same for `decode_astc`. -/
def pyAstcOut (n : Nat) (x : Mem × Out (Except String Unit)) : Out PyResult :=
  match x with
  | (_, .ok (.ok _)) => .panic
  | (m, .ok (.error _)) => .ok (.bytes (pyBytes n m.image))
  | (_, .panic) => .panic

theorem pybind_out [Build] {alloc : Nat → Bool} {behind : Nat → UInt32} {fn : PyFn}
    {data : List UInt8} {w h n : Nat} (hn : pySize w h = .ok n) (ha : alloc n = true) :
    (pybind alloc behind fn data w h).2 =
      pyOut n (fn.decoder data w h ⟨pyImage n behind, []⟩) := by
  unfold pybind
  rw [hn]
  simp only [ha, if_true]
  generalize fn.decoder data w h ⟨pyImage n behind, []⟩ = x
  obtain ⟨m, o⟩ := x
  cases o with
  | panic => rfl
  | ok r => cases r <;> rfl

theorem pyDecodeAstc_out [Build] {alloc : Nat → Bool} {behind : Nat → UInt32}
    {data : List UInt8} {w h bw bh n : Nat} (hn : pySize w h = .ok n) (ha : alloc n = true) :
    (pyDecodeAstc alloc behind data w h bw bh).2 =
      pyAstcOut n (decodeAstcR data w h bw bh ⟨pyImage n behind, []⟩) := by
  unfold pyDecodeAstc
  rw [hn]
  simp only [ha, if_true]
  generalize decodeAstcR data w h bw bh ⟨pyImage n behind, []⟩ = x
  obtain ⟨m, o⟩ := x
  cases o with
  | panic => rfl
  | ok r => cases r <;> rfl

/-- Two runs whose Rust functions agree as in C72. -/
theorem outs_agree {x x' : Mem × Out (Except String Unit)}
    {y y' : Out (Except String Unit × List UInt32)}
    (s : Same (fun r image => (r, image)) x y) (s' : Same (fun r image => (r, image)) x' y')
    (hy : ∀ r image, y = .ok (r, image) → y' = .ok (r, image)) (n : Nat) (r : PyResult) :
    (pyOut n x = .ok r → pyOut n x' = .ok r) ∧ (pyAstcOut n x = .ok r → pyAstcOut n x' = .ok r) := by
  obtain ⟨m, o⟩ := x
  cases o with
  | panic => exact ⟨fun h => (nomatch h), fun h => (nomatch h)⟩
  | ok res =>
    rw [hy res m.image s] at s'
    obtain ⟨m', em, hm⟩ := s'.of_ok
    subst em
    cases res with
    | ok _ =>
      refine ⟨fun h => ?_, fun h => (nomatch h)⟩
      rw [← h]
      show Out.ok (PyResult.bytes (pyBytes n m'.image)) = _
      rw [hm]
      rfl
    | error _ =>
      refine ⟨fun h => h, fun h => ?_⟩
      rw [← h]
      show Out.ok (PyResult.bytes (pyBytes n m'.image)) = _
      rw [hm]
      rfl

/-- **C72** What a function of the Python module does in a build with overflow checks, to return an
object, to raise `ValueError` or to raise `MemoryError`, it does in every build, with the same bytes
and the same message. Nothing is assumed about the data, the sizes or the memory. -/
theorem C72_python (alloc : Nat → Bool) (behind : Nat → UInt32) (fn : PyFn) (data : List UInt8)
    (w h : Nat) (r : PyResult)
    (hd : (@pybind Build.debug alloc behind fn data w h).2 = .ok r) (b : Build) :
    (@pybind b alloc behind fn data w h).2 = .ok r := by
  cases e : @pySize Build.debug w h with
  | panic =>
    unfold pybind at hd
    rw [e] at hd
    cases hd
  | ok n =>
    have e' : @pySize b w h = .ok n := ofBuilds (f := fun b => @pySize b w h) pySize_builds e b
    cases ha : alloc n with
    | false =>
      unfold pybind at hd ⊢
      rw [e] at hd
      rw [e']
      simp only [ha, Bool.false_eq_true, if_false] at hd ⊢
      exact hd
    | true =>
      rw [@pybind_out Build.debug _ _ _ _ _ _ _ e ha] at hd
      rw [@pybind_out b _ _ _ _ _ _ _ e' ha]
      exact (outs_agree (@pyFn_same Build.debug fn data w h _) (@pyFn_same b fn data w h _)
        (fun r image hr => C72_all_functions fn data w h _ image r hr b) n r).1 hd

/-- **C72** The function `decode_astc` of the Python module, with any block size. -/
theorem C72_python_astc (alloc : Nat → Bool) (behind : Nat → UInt32) (data : List UInt8)
    (w h bw bh : Nat) (r : PyResult)
    (hd : (@pyDecodeAstc Build.debug alloc behind data w h bw bh).2 = .ok r) (b : Build) :
    (@pyDecodeAstc b alloc behind data w h bw bh).2 = .ok r := by
  cases e : @pySize Build.debug w h with
  | panic =>
    unfold pyDecodeAstc at hd
    rw [e] at hd
    cases hd
  | ok n =>
    have e' : @pySize b w h = .ok n := ofBuilds (f := fun b => @pySize b w h) pySize_builds e b
    cases ha : alloc n with
    | false =>
      unfold pyDecodeAstc at hd ⊢
      rw [e] at hd
      rw [e']
      simp only [ha, Bool.false_eq_true, if_false] at hd ⊢
      exact hd
    | true =>
      rw [@pyDecodeAstc_out Build.debug _ _ _ _ _ _ _ _ e ha] at hd
      rw [@pyDecodeAstc_out b _ _ _ _ _ _ _ _ e' ha]
      exact (outs_agree (@decodeAstcR_same Build.debug _ _ _ _ _ _) (@decodeAstcR_same b _ _ _ _ _ _)
        (fun r image hr => C72_astc_any_block_size data w h bw bh _ image r hr b) n r).2 hd

/- BC1: an object and a `ValueError`, in every build. -/
example (b : Build) :
    (@pybind b (fun n => n < 100) (fun _ => 9) .bc1 (List.replicate 15 85) 5 3).2
      = .ok (.valueError "Not enough data to decode image!") ∧
    (@pybind b (fun n => n < 100) (fun _ => 9) .bc1 (List.replicate 16 85) 5 3).2
      = .ok (.bytes ((List.replicate 15 [173, 170, 82, 255]).flatten)) :=
  ⟨C72_python _ _ .bc1 _ _ _ _ (by decide +kernel) b,
    C72_python _ _ .bc1 _ _ _ _ (by decide +kernel) b⟩

/- ASTC without data: the object that C62 describes, in every build. -/
example (b : Build) :
    (@pyDecodeAstc b (fun n => n < 100) (fun _ => 9) [] 1 1 4 4).2 = .ok (.bytes [0, 0, 0, 0]) :=
  C72_python_astc _ _ [] 1 1 4 4 _ (by decide +kernel) b

end Verif.Props
