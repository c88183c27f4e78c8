import Verif.Res

/-!
# Specification: loops without a bound

`loop { ... }` and `while c { ... }` of Rust. The body maps the state to a new state, with which the loop
goes on, or to the result with which it is left; it may also fail (`return`) or panic. A loop that
runs forever has no result.
-/

namespace Verif.Spec

/-- The loop with body `body`, started in state `s`, ends with the outcome `r`. -/
inductive LoopEnds {σ β : Type} (body : σ → Res (σ ⊕ β)) : σ → Res β → Prop
  | leave {s : σ} {b : β} (h : body s = .ok (.inr b)) : LoopEnds body s (.ok b)
  | fail {s : σ} {msg : String} (h : body s = .fail msg) : LoopEnds body s (.fail msg)
  | panic {s : σ} (h : body s = .panic) : LoopEnds body s .panic
  | next {s s' : σ} {r : Res β} (h : body s = .ok (.inl s')) (hr : LoopEnds body s' r) :
      LoopEnds body s r

end Verif.Spec
