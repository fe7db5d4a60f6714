import Verif.Event
import Verif.Rust

/-! Computations that may panic and that append to a log. -/

namespace Model.Log
open Rust

/-- A computation that appends to a log with entries of type `ε`. -/
abbrev LoggedOf (ε : Type) := StateT (List ε) Res

/-- A computation that appends to a log. -/
abbrev Logged := LoggedOf Event

/-- Appends an event. -/
def emit (e : Event) : Logged Unit := fun log => pure ((), log ++ [e])

/-- A computation that logs nothing. -/
def quiet {ε α : Type} (m : Res α) : LoggedOf ε α := fun log => m >>= fun a => pure (a, log)

/-- `forLoop` for computations with a log. -/
def forLoop {ε σ : Type} (i n : Nat) (body : Nat → σ → LoggedOf ε σ) (s : σ) : LoggedOf ε σ :=
  fun log => Rust.forLoop i n (fun i x => body i x.1 x.2) (s, log)

/-- `unroll12` for computations with a log. -/
def unroll12 {ε σ : Type} (stmt : Fin 12 → σ → LoggedOf ε σ) (s : σ) : LoggedOf ε σ :=
  fun log => Rust.unroll12 (fun w x => stmt w x.1 x.2) (s, log)

/-- One round of a `loop`: the log goes on in both cases. -/
def roundOf {ε σ β : Type} (body : σ → LoggedOf ε (σ ⊕ β)) (x : σ × List ε) : Res ((σ × List ε) ⊕ (β × List ε)) :=
  body x.1 x.2 >>= fun r => match r.1 with
    | .inl s => pure (.inl (s, r.2))
    | .inr b => pure (.inr (b, r.2))

/-- `loop { body }` for computations with a log. -/
def loop {ε σ β : Type} (body : σ → LoggedOf ε (σ ⊕ β)) (s : σ) : LoggedOf ε β := fun log => Rust.loop (roundOf body) (s, log)

end Model.Log
