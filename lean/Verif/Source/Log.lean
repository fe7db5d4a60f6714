import Verif.Logged
import Verif.Source.Semantics

/-!
# What a run of the source touches

The interpreter of `Source/Semantics.lean` once more, with a log. Each function below repeats the one of the same name without the
`L`, line by line; in addition it notes

* each access to an element of a vector or an array, with its position, the variable it belongs to and whether the position is
  computed (not a literal and not the counter `_i` of a loop);
* the bounds of each slice, the position at which `split_at` splits and the lengths of the vectors that are created;
* the operands of divisions and remainders and the number of places of shifts;
* each call of a function, by name;
* the way each `if` takes and the number of rounds of each `for`.

A `loop` ends at a `break`; the fragment has no other way out, and which way leads there is seen in the `if`s. Whole variables
are used without a note: they have no position.

`obs` says what an observer makes of a note: nothing, or some entries of the log.
-/

namespace Source
open Rust
open Model.Log (LoggedOf quiet)

/-- What is noted. -/
inductive Access
  /-- Element `i` of the variable `x`, or of a part of it, is read. -/
  | read (x : String) (computed : Bool) (i : Nat)
  /-- Element `i` of the variable `x`, or of a part of it, is written. -/
  | write (x : String) (computed : Bool) (i : Nat)
  /-- `[lo..hi]` -/
  | part (lo hi : Nat)
  /-- The variable `x` is split at `i`; its second part has `n` elements. -/
  | split (x : String) (i n : Nat)
  /-- A vector of `n` elements is created, by `vec![x; n]`, `to_vec` or `clone`. -/
  | alloc (n : Nat)
  /-- A division or a remainder is computed. -/
  | divide (x y : Int)
  /-- A number is shifted by `n` places. -/
  | shift (n : Int)
  /-- A function is called. -/
  | call (f : String)
  /-- An `if` takes its first or its second way. -/
  | branch (b : Bool)
  /-- A `for` has `n` rounds. -/
  | range (n : Nat)
deriving DecidableEq, Repr

/-- What an expression depends on besides the local variables, and what the observer makes of a note. -/
structure LCtx (ε : Type) where
  u : Nat
  p : Profile
  obs : Access → List ε
  call : String → List Val → LoggedOf ε Val

variable {ε : Type}

/-- Makes notes. -/
def note (c : LCtx ε) (as : List Access) : LoggedOf ε Unit := fun log => pure ((), log ++ as.flatMap c.obs)

/-- The variable that an expression is a part of. -/
def rootOf : Expr → String
  | .var x => x
  | .index e _ => rootOf e
  | .field e _ => rootOf e
  | _ => ""

/-- A position that is neither a literal nor the counter of a loop over the words of a block (`_i as usize`). -/
def isComputed : Expr → Bool
  | .lit _ => false
  | .cast (.var x) _ => x != "_i"
  | _ => true

/-- The notes of a call of a method, with its result. -/
def methodNotes (e : Expr) (m : String) (args : List Val) (r : Val) : List Access :=
  match m, args, r with
  | "split_at", [.usize i], .pair _ (.words64 right) => [.split (rootOf e) i.toNat right.size]
  | "to_vec", [], .words64 xs => [.alloc xs.size]
  | "to_vec", [], .bytes xs => [.alloc xs.length]
  | "clone", [], .bytes xs => [.alloc xs.length]
  | _, _, _ => []

/-- The number that an operand is; 0 if it is none. -/
def operand : Val → Int
  | .lit n => n
  | .u8 x => x.toNat
  | .u32 x => x.toNat
  | .u64 x => x.toNat
  | .i64 x => x.toInt
  | .usize x => x.toNat
  | _ => 0

/-- The notes of an operator: the operands of divisions and remainders and the number of places of shifts, on which the time that a
processor takes may depend. -/
def opNotes (op : BinOp) (x y : Val) : List Access :=
  match op with
  | .div | .rem => [.divide (operand x) (operand y)]
  | .shl | .shr => [.shift (operand y)]
  | _ => []

mutual
/-- `eval` with notes. -/
def evalL (c : LCtx ε) (env : Env) (want : Option Ty) : Expr → LoggedOf ε Val
  | .lit n => quiet (asTy want (.lit n))
  | .var x => do
    let v ← quiet (env.get x)
    quiet (asTy want v)
  | .const x => c.call x []
  | .neg e => do
    let v ← evalL c env none e
    let r ← quiet (negate c.p v)
    quiet (asTy want r)
  | .bin op a b => do
    let x ← evalL c env none a
    let y ← evalL c env none b
    note c (opNotes op x y)
    let r ← quiet (binOp c.u c.p op x y)
    quiet (asTy want r)
  | .cast e t => do
    let v ← evalL c env none e
    let n ← quiet v.num
    pure (castTo c.u t n)
  | .index e i => do
    let v ← evalL c env none e
    let x ← evalL c env none i
    let k ← quiet (position x)
    note c [.read (rootOf e) (isComputed i) k]
    quiet (item v k)
  | .slice e lo hi => do
    let v ← evalL c env none e
    let lo ← evalL c env none lo
    let hi ← evalL c env none hi
    let a ← quiet (position lo)
    let b ← quiet (position hi)
    note c [.part a b]
    quiet (part v a b)
  | .prefix e hi => do
    let v ← evalL c env none e
    let hi ← evalL c env none hi
    let b ← quiet (position hi)
    note c [.part 0 b]
    quiet (part v 0 b)
  | .field e f => do
    let v ← evalL c env none e
    quiet (getField f v)
  | .call f args => do
    let vs ← evalListL c env args
    if f = "Vec::with_capacity" then quiet (listed want []) else do
      note c [.call f]
      c.call f vs
  | .method e m args => do
    let v ← evalL c env none e
    let vs ← evalListL c env args
    let r ← quiet (applyMethod m v vs)
    note c (methodNotes e m vs r)
    pure r
  | .vecOf x n => do
    let x ← evalL c env none x
    let n ← evalL c env none n
    let k ← quiet (position n)
    note c [.alloc k]
    quiet (repeated c.u want x k)
  | .arrayOf x n => do
    let x ← evalL c env none x
    quiet (repeated c.u want x n)
  | .list es => do
    let vs ← evalListL c env es
    quiet (listed want vs)
  | .struct fields es => do
    let vs ← evalFieldsL c env fields es
    pure (.struct vs)

/-- `evalList` with notes. -/
def evalListL (c : LCtx ε) (env : Env) : List Expr → LoggedOf ε (List Val)
  | [] => pure []
  | e :: es => do
    let v ← evalL c env none e
    let vs ← evalListL c env es
    pure (v :: vs)

/-- `evalFields` with notes. -/
def evalFieldsL (c : LCtx ε) (env : Env) (fields : List (String × Ty)) : List Expr → LoggedOf ε (List (String × Val))
  | [] => pure []
  | e :: es =>
    match fields with
    | (f, t) :: fields => do
      let v ← evalL c env (some t) e
      let vs ← evalFieldsL c env fields es
      pure ((f, v) :: vs)
    | [] => quiet stuck
end

/-- `place` with notes. -/
def placeL (c : LCtx ε) (env : Env) : Expr → LoggedOf ε (String × List Step)
  | .var x => pure (x, [])
  | .index e i => do
    let pl ← placeL c env e
    let i ← evalL c env none i
    let k ← quiet (position i)
    pure (pl.1, pl.2 ++ [.index k])
  | .field e f => do
    let pl ← placeL c env e
    pure (pl.1, pl.2 ++ [.field f])
  | _ => quiet stuck

/-- The element that a place is, if it is one: the variable, whether the position is computed, and the position. -/
def element (l : Expr) (pl : String × List Step) : Option (String × Bool × Nat) :=
  match l, pl.2.getLast? with
  | .index e i, some (.index k) => some (rootOf e, isComputed i, k)
  | _, _ => none

/-- The notes of reading a place. -/
def readNotes (l : Expr) (pl : String × List Step) : List Access :=
  match element l pl with
  | some (x, b, k) => [.read x b k]
  | none => []

/-- The notes of writing to a place. -/
def writeNotes (l : Expr) (pl : String × List Step) : List Access :=
  match element l pl with
  | some (x, b, k) => [.write x b k]
  | none => []

mutual
/-- `exec` with notes. -/
def execL (c : LCtx ε) : Stmt → Env → LoggedOf ε Flow
  | .letVar x t e, env => do
    let v ← evalL c env t e
    pure (.next ((x, v) :: env))
  | .letSnd x e, env => do
    match (← evalL c env none e) with
    | .pair _ v => pure (.next ((x, v) :: env))
    | _ => quiet stuck
  | .assign l e, env => do
    let v ← evalL c env none e
    let pl ← placeL c env l
    note c (writeNotes l pl)
    let env ← quiet (writePlace env pl v)
    pure (.next env)
  | .assignOp op l e, env => do
    let v ← evalL c env none e
    let pl ← placeL c env l
    note c (readNotes l pl)
    let old ← quiet (readPlace env pl)
    note c (opNotes op old v)
    let new ← quiet (binOp c.u c.p op old v)
    note c (writeNotes l pl)
    let env ← quiet (writePlace env pl new)
    pure (.next env)
  | .mutate l m args, env =>
    match l, m with
    | .prefix l hi, "clone_from_slice" => do
      let pl ← placeL c env l
      let old ← quiet (readPlace env pl)
      let hi ← evalL c env none hi
      let hi ← quiet (position hi)
      note c [.part 0 hi]
      let _ ← quiet (part old 0 hi)
      match (← evalListL c env args) with
      | [s] => do
        let new ← quiet (overwrite old hi s)
        let env ← quiet (writePlace env pl new)
        pure (.next env)
      | _ => quiet stuck
    | l, m => do
      let pl ← placeL c env l
      let vs ← evalListL c env args
      let old ← quiet (readPlace env pl)
      let new ← quiet (applyMutator c.u m old vs)
      let env ← quiet (writePlace env pl new)
      pure (.next env)
  | .panic, _ => quiet (throw .explicit)
  | .ifElse b t e, env => do
    match (← evalL c env none b) with
    | .bool true => do
      note c [.branch true]
      execScopeL c env.length t env
    | .bool false => do
      note c [.branch false]
      execScopeL c env.length e env
    | _ => quiet stuck
  | .forIn x lo hi incl body, env => do
    let lo ← evalL c env none lo
    let hi ← evalL c env none hi
    let a ← quiet lo.num
    let b ← quiet hi.num
    let n := (b - a + (if incl then 1 else 0)).toNat
    note c [.range n]
    let env ← Model.Log.forLoop 0 n (fun k env => do
      match (← execScopeL c env.length body ((x, rangeVal lo hi (a + k)) :: env)) with
      | .next env => pure env
      | .brk _ => quiet stuck) env
    pure (.next env)
  | .loop body, env => do
    let env ← Model.Log.loop (fun env => do
      match (← execScopeL c env.length body env) with
      | .next env => pure (.inl env)
      | .brk env => pure (.inr env)) env
    pure (.next env)
  | .break, env => pure (.brk env)

/-- `execBlock` with notes. -/
def execBlockL (c : LCtx ε) : List Stmt → Env → LoggedOf ε Flow
  | [], env => pure (.next env)
  | s :: ss, env => do
    match (← execL c s env) with
    | .next env => execBlockL c ss env
    | .brk env => pure (.brk env)

/-- `execScope` with notes. -/
def execScopeL (c : LCtx ε) (n : Nat) (ss : List Stmt) (env : Env) : LoggedOf ε Flow := do
  match (← execBlockL c ss env) with
  | .next env => pure (.next (env.leave n))
  | .brk env => pure (.brk (env.leave n))
end

/-- `runFn` with notes. -/
def runFnL (c : LCtx ε) (f : Fn) (args : List Val) : LoggedOf ε Val := do
  let env ← quiet (bindArgs f.params args)
  match (← execBlockL c f.body env) with
  | .next env => evalL c env (some f.ret) f.result
  | .brk _ => quiet stuck

/-- `call` with notes. The functions of other crates make none. -/
def callL (obs : Access → List ε) (fns : List Fn) (ext : String → Option (List U8 → List U8)) (u : Nat) (p : Profile) :
    (depth : Nat) → String → List Val → LoggedOf ε Val
  | 0, _, _ => quiet (none : Option (Except Panic Val))
  | depth + 1, name, args =>
    match fns.find? (·.name = name) with
    | some f => runFnL { u, p, obs, call := callL obs fns ext u p depth } f args
    | none => quiet (
      match ext name, args with
      | some h, [.bytes xs] => pure (.bytes (h xs))
      | _, _ => stuck)

/-! ## The observer of the memory matrix -/

/-- What is seen of a run of `lyra2` or `lyra2mod`: the accesses to `whole_matrix`, those to `state` whose position is computed, and
the calls of the two sponge transformations. What `split_at` makes of `whole_matrix` is seen as the copy that `to_vec` makes of it. -/
def seen : Access → List Event
  | .read x b i => if x = "whole_matrix" then [.read i] else if x = "state" ∧ b = true then [.state i] else []
  | .write x b i => if x = "whole_matrix" then [.write i] else if x = "state" ∧ b = true then [.state i] else []
  | .split x i n => if x = "whole_matrix" then [.copy i n] else []
  | .call f =>
    if f = "lyra2::reduced_blake2b_lyra" ∨ f = "lyra2mod::reduced_blake2b_lyra" then [.round]
    else if f = "lyra2::blake2b_lyra" ∨ f = "lyra2mod::blake2b_lyra" then [.permute]
    else []
  | .part _ _ | .alloc _ | .divide _ _ | .shift _ | .branch _ | .range _ => []

end Source
