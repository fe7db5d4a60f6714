import Verif.Rust

/-! The rounds of a `loop`, made visible. -/

namespace Spec
open Rust

/-- `loop { body }` started in the first state of the list goes exactly through the listed states (one per round) and
breaks with `w` in the last one. -/
inductive Rounds {σ β : Type} (body : σ → Res (σ ⊕ β)) : List σ → β → Prop
  | last {v : σ} {w : β} (h : (body v).Returns (.inr w)) : Rounds body [v] w
  | more {v v' : σ} {vs : List σ} {w : β} (h : (body v).Returns (.inl v')) (t : Rounds body (v' :: vs) w) :
      Rounds body (v :: v' :: vs) w

end Spec
