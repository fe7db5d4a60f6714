import Verif.Proofs.SrcSecret
import Verif.Source.Crate

/-! The labels of the functions of the crate. -/

namespace Source
open Rust
open Model.Log (LoggedOf quiet)

/-- The label of a secret or public argument. -/
def labOf (b : Bool) : Label := if b then .sec else .pub

set_option maxRecDepth 100000 in
theorem constantTime_checked : (constantTime.all fun x => labCall true crate 6 x.1 (x.2.map labOf) == some .sec) = true := by decide +kernel

set_option maxRecDepth 100000 in
theorem lax_lyra2 : labCall false crate 6 "lyra2::lyra2" [.pub, .sec, .sec, .pub, .pub, .pub] = some .sec ∧
    labCall false crate 6 "lyra2mod::lyra2mod" [.pub, .sec, .sec, .pub, .pub, .pub] = some .sec := by decide +kernel

set_option maxRecDepth 100000 in
theorem lax_sums : labCall false crate 7 "lyra2::sum" [.sec] = some .sec ∧ labCall false crate 7 "lyra2mod::sum" [.sec] = some .sec := by decide +kernel

set_option maxRecDepth 100000 in
theorem lax_chains : labCall false crate 8 "lyra2re::sum" [.any] = some .sec ∧ labCall false crate 8 "lyra2rev2::sum" [.any] = some .sec ∧
    labCall false crate 8 "lyra2rev3::sum" [.any] = some .sec ∧ labCall false crate 8 "lyra2z::sum" [.any] = some .sec := by decide +kernel

set_option maxRecDepth 100000 in
theorem strict_setup : ((crate.find? (·.name = "lyra2::lyra2")).bind fun f =>
      labFn true (labCall true crate 5) (setupOf f) [.pub, .sec, .sec, .pub, .pub, .pub]) = some .pub ∧
    ((crate.find? (·.name = "lyra2mod::lyra2mod")).bind fun f =>
      labFn true (labCall true crate 5) (setupOf f) [.pub, .sec, .sec, .pub, .pub, .pub]) = some .pub := by decide +kernel

theorem control_hides : Hides false control :=
  ⟨fun _ _ _ _ _ => rfl, fun _ _ _ _ _ => rfl, fun _ _ _ _ _ => rfl, fun _ _ _ _ _ => rfl, fun _ _ _ => rfl, fun _ _ _ _ => rfl, fun _ _ => rfl⟩

theorem strict_hides {ε : Type} (obs : Access → List ε) : Hides true obs := ⟨nofun, nofun, nofun, nofun, nofun, nofun, nofun⟩

variable {ε α β : Type}

theorem bind_returns {m : Res α} {f : α → Res β} {b : β} (h : (m >>= f).Returns b) : ∃ a, m.Returns a ∧ (f a).Returns b := by
  rcases fails_or_returns m with hm | ⟨a, rfl⟩
  · exact (hm.bind f b h).elim
  · exact ⟨a, rfl, h⟩

theorem block_append (c : LCtx ε) (a b : List Stmt) (env : Env) : execBlockL c (a ++ b) env = (execBlockL c a env >>= fun r => match r with
      | .next env => execBlockL c b env
      | .brk env => pure (.brk env)) := by
  induction a generalizing env with
  | nil => rw [List.nil_append, execBlockL, pure_bind]
  | cons s ss ih =>
    rw [List.cons_append, execBlockL, execBlockL, bind_assoc]
    refine bind_congr fun r => ?_
    match r with
    | .next env => exact ih env
    | .brk env => rw [pure_bind]

/-- If a call returns then so does the part of it in front of the wandering phase. -/
theorem setupOf_returns {c : LCtx ε} {f : Fn} {args : List Val} {log : List ε} {r : Val × List ε} (h : (runFnL c f args log).Returns r) :
    ∃ log', (runFnL c (setupOf f) args log).Returns (.i64 0, log') := by
  obtain ⟨⟨env, l0⟩, h0, h1⟩ := bind_returns (m := (quiet (bindArgs f.params args) : LoggedOf ε Env) log) h
  obtain ⟨⟨fl, l1⟩, h1, h2⟩ := bind_returns (m := execBlockL c f.body env l0) h1
  have hb : f.body = (setupOf f).body ++ f.body.dropWhile (!isWander ·) := (List.takeWhile_append_dropWhile ..).symm
  rw [hb, block_append] at h1
  obtain ⟨⟨fl', l2⟩, h3, h4⟩ := bind_returns (m := execBlockL c (setupOf f).body env l0) h1
  have key : runFnL c (setupOf f) args log =
      ((quiet (bindArgs f.params args) : LoggedOf ε Env) log >>= fun x => execBlockL c (setupOf f).body x.1 x.2 >>= fun y =>
        (match y.1 with
          | .next env => evalL c env (some (.int .i64)) (.lit 0)
          | .brk _ => quiet stuck) y.2) := rfl
  rw [key, h0]
  refine ⟨l2, ?_⟩
  show (execBlockL c (setupOf f).body env l0 >>= _).Returns _
  rw [h3]
  cases fl' with
  | next env' =>
    show (evalL c env' (some (.int .i64)) (.lit 0) l2).Returns _
    rw [evalL]
    rfl
  | brk env' =>
    exfalso
    have h4 : (pure (Flow.brk env', l2) : Res (Flow × List ε)) = pure (fl, l1) := h4
    cases h4
    cases h2

end Source
