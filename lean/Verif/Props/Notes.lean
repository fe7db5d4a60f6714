import Verif.Source.Log
import Verif.Proofs.Res

/-! Property C67: what the log of `Source/Log.lean` contains. The rules hold for every observer, every program and every state of the
variables: a construct leaves its note after those of its parts, in the order in which the parts are evaluated. -/

namespace Props
open Rust Rust.Res Source
open Model.Log (LoggedOf)

variable {ε : Type} (c : LCtx ε) (env : Env) (log : List ε)

theorem bindL {α β : Type} {m : LoggedOf ε α} {f : α → LoggedOf ε β} {log log' : List ε} {a : α} (h : (m log).Returns (a, log')) :
    (m >>= f) log = f a log' := by
  show (m log >>= fun x => f x.1 x.2) = _
  rw [h]; rfl

theorem bindQ {α β : Type} {m : Res α} {f : α → LoggedOf ε β} {log : List ε} {a : α} (h : m.Returns a) :
    (Model.Log.quiet m >>= f) log = f a log := by
  show ((m >>= fun a => pure (a, log)) >>= fun x => f x.1 x.2) = _
  rw [h]; rfl

theorem note_one (a : Access) : (note c [a] log).Returns ((), log ++ c.obs a) := by simp [note, Res.Returns]

theorem note_op (op : BinOp) (x y : Val) :
    (note c (opNotes op x y) log).Returns ((), log ++ (opNotes op x y).flatMap c.obs) := by simp [note, Res.Returns]

/-- **C67** (i) An `if` leaves the way that it takes. -/
theorem C67_if (b : Expr) (t e : List Stmt) (w : Bool) (log' : List ε) (h : (evalL c env none b log).Returns (.bool w, log')) :
    execL c (.ifElse b t e) env log = execScopeL c env.length (if w then t else e) env (log' ++ c.obs (.branch w)) := by
  rw [execL, bindL h]
  cases w
  · exact bindL (note_one c log' _)
  · exact bindL (note_one c log' _)

/-- **C67** (ii) A `for` leaves the number of its rounds, before the first one. -/
theorem C67_for (x : String) (lo hi : Expr) (incl : Bool) (body : List Stmt) (v w : Val) (a b : Int) (log1 log2 : List ε)
    (hlo : (evalL c env none lo log).Returns (v, log1)) (hhi : (evalL c env none hi log1).Returns (w, log2)) (ha : v.num.Returns a)
    (hb : w.num.Returns b) :
    let n := (b - a + (if incl then 1 else 0)).toNat
    execL c (.forIn x lo hi incl body) env log =
      (Model.Log.forLoop 0 n (fun k env => do
        match (← execScopeL c env.length body ((x, rangeVal v w (a + k)) :: env)) with
        | .next env => pure env
        | .brk _ => Model.Log.quiet stuck) env >>= fun env => pure (.next env)) (log2 ++ c.obs (.range n)) := by
  intro n
  rw [execL, bindL hlo, bindL hhi, bindQ ha, bindQ hb, bindL (note_one c log2 _)]
  rfl

/-- **C67** (iii) `e[i]` leaves the variable and the position. It does so even if the position is out of bounds. -/
theorem C67_index (want : Option Ty) (e i : Expr) (v x : Val) (k : Nat) (log1 log2 : List ε)
    (he : (evalL c env none e log).Returns (v, log1)) (hi : (evalL c env none i log1).Returns (x, log2)) (hk : (position x).Returns k) :
    evalL c env want (.index e i) log = Model.Log.quiet (item v k) (log2 ++ c.obs (.read (rootOf e) (isComputed i) k)) := by
  rw [evalL, bindL he, bindL hi, bindQ hk, bindL (note_one c log2 _)]

/-- **C67** (iv) `e[lo..hi]` leaves the bounds. -/
theorem C67_slice (want : Option Ty) (e lo hi : Expr) (v x y : Val) (a b : Nat) (log1 log2 log3 : List ε)
    (he : (evalL c env none e log).Returns (v, log1)) (hlo : (evalL c env none lo log1).Returns (x, log2))
    (hhi : (evalL c env none hi log2).Returns (y, log3)) (ha : (position x).Returns a) (hb : (position y).Returns b) :
    evalL c env want (.slice e lo hi) log = Model.Log.quiet (part v a b) (log3 ++ c.obs (.part a b)) := by
  rw [evalL, bindL he, bindL hlo, bindL hhi, bindQ ha, bindQ hb, bindL (note_one c log3 _)]

/-- **C67** (iv) `e[..hi]` too. -/
theorem C67_prefix (want : Option Ty) (e hi : Expr) (v y : Val) (b : Nat) (log1 log2 : List ε)
    (he : (evalL c env none e log).Returns (v, log1)) (hhi : (evalL c env none hi log1).Returns (y, log2)) (hb : (position y).Returns b) :
    evalL c env want (.prefix e hi) log = Model.Log.quiet (part v 0 b) (log2 ++ c.obs (.part 0 b)) := by
  rw [evalL, bindL he, bindL hhi, bindQ hb, bindL (note_one c log2 _)]

/-- **C67** (v) `a / b` and `a % b` leave both operands, `a << b` and `a >> b` the number of places, other operators nothing. -/
theorem C67_operator (want : Option Ty) (op : BinOp) (a b : Expr) (x y : Val) (log1 log2 : List ε)
    (ha : (evalL c env none a log).Returns (x, log1)) (hb : (evalL c env none b log1).Returns (y, log2)) :
    evalL c env want (.bin op a b) log =
      Model.Log.quiet (binOp c.u c.p op x y >>= asTy want) (log2 ++
        match op with
        | .div | .rem => c.obs (.divide (operand x) (operand y))
        | .shl | .shr => c.obs (.shift (operand y))
        | _ => []) := by
  rw [evalL, bindL ha, bindL hb, bindL (note_op c log2 op x y)]
  have h : ∀ log3 : List ε, (Model.Log.quiet (binOp c.u c.p op x y) >>= fun r => Model.Log.quiet (asTy want r)) log3 =
      Model.Log.quiet (binOp c.u c.p op x y >>= asTy want) log3 := by
    intro log3
    show ((binOp c.u c.p op x y >>= fun a => pure (a, log3)) >>= fun z => (asTy want z.1 >>= fun a => pure (a, z.2))) =
      ((binOp c.u c.p op x y >>= asTy want) >>= fun a => pure (a, log3))
    simp only [bind_assoc, pure_bind]
  rw [h]
  cases op <;> simp [opNotes]

/-- **C67** (v) The operands are numbers: two `u32`, two `u64`, two `usize` with the same operand are the same. -/
theorem C67_operand : (∀ x y : U8, operand (.u8 x) = operand (.u8 y) → x = y) ∧ (∀ x y : U32, operand (.u32 x) = operand (.u32 y) → x = y) ∧
    (∀ x y : U64, operand (.u64 x) = operand (.u64 y) → x = y) ∧ (∀ x y : I64, operand (.i64 x) = operand (.i64 y) → x = y) ∧
    (∀ x y : U64, operand (.usize x) = operand (.usize y) → x = y) ∧ (∀ n m : Nat, operand (.lit n) = operand (.lit m) → n = m) := by
  simp only [operand]
  refine ⟨?_, ?_, ?_, ?_, ?_, ?_⟩
  · intro x y h; exact BitVec.eq_of_toNat_eq (by exact_mod_cast h)
  · intro x y h; exact BitVec.eq_of_toNat_eq (by exact_mod_cast h)
  · intro x y h; exact BitVec.eq_of_toNat_eq (by exact_mod_cast h)
  · intro x y h; exact BitVec.eq_of_toInt_eq h
  · intro x y h; exact BitVec.eq_of_toNat_eq (by exact_mod_cast h)
  · intro x y h; exact_mod_cast h

/-- **C67** (vi) `vec![x; n]` leaves the length. -/
theorem C67_vec (want : Option Ty) (e n : Expr) (v x : Val) (k : Nat) (log1 log2 : List ε)
    (he : (evalL c env none e log).Returns (v, log1)) (hn : (evalL c env none n log1).Returns (x, log2)) (hk : (position x).Returns k) :
    evalL c env want (.vecOf e n) log = Model.Log.quiet (repeated c.u want v k) (log2 ++ c.obs (.alloc k)) := by
  rw [evalL, bindL he, bindL hn, bindQ hk, bindL (note_one c log2 _)]

/-- **C67** (vi) `e.to_vec()` and `e.clone()` leave the number of elements that they copy. -/
theorem C67_copy (want : Option Ty) (e : Expr) (log1 : List ε) :
    (∀ xs : Array U64, (evalL c env none e log).Returns (.words64 xs, log1) →
      evalL c env want (.method e "to_vec" []) log = pure (.words64 xs, log1 ++ c.obs (.alloc xs.size))) ∧
    ∀ xs : List U8, (evalL c env none e log).Returns (.bytes xs, log1) →
      evalL c env want (.method e "to_vec" []) log = pure (.bytes xs, log1 ++ c.obs (.alloc xs.length)) ∧
      evalL c env want (.method e "clone" []) log = pure (.bytes xs, log1 ++ c.obs (.alloc xs.length)) := by
  constructor
  · intro xs h
    rw [evalL, bindL h, evalListL, pure_bind, bindQ (show (applyMethod "to_vec" (.words64 xs) []).Returns (.words64 xs) from rfl)]
    exact bindL (note_one c log1 _)
  · intro xs h
    constructor
    · rw [evalL, bindL h, evalListL, pure_bind, bindQ (show (applyMethod "to_vec" (.bytes xs) []).Returns (.bytes xs) from rfl)]
      exact bindL (note_one c log1 _)
    · rw [evalL, bindL h, evalListL, pure_bind, bindQ (show (applyMethod "clone" (.bytes xs) []).Returns (.bytes xs) from rfl)]
      exact bindL (note_one c log1 _)

/-- **C67** (vii) A call leaves the name of the function, after the notes of its arguments and before those of its body. -/
theorem C67_call (want : Option Ty) (f : String) (hf : f ≠ "Vec::with_capacity") (args : List Expr) (vs : List Val) (log1 : List ε)
    (h : (evalListL c env args log).Returns (vs, log1)) :
    evalL c env want (.call f args) log = c.call f vs (log1 ++ c.obs (.call f)) := by
  rw [evalL, bindL h, if_neg hf, bindL (note_one c log1 _)]

/-- **C67** (vii) The body of a function is run with the notes of the same observer. -/
theorem C67_body (obs : Access → List ε) (fns : List Fn) (ext : String → Option (List U8 → List U8)) (u : Nat) (p : Profile) (depth : Nat)
    (name : String) (args : List Val) (f : Fn) (hf : fns.find? (·.name = name) = some f) (env' : Env)
    (he : (bindArgs f.params args).Returns env') :
    callL obs fns ext u p (depth + 1) name args log =
      (execBlockL { u, p, obs, call := callL obs fns ext u p depth } f.body env' >>= fun r =>
        match r with
        | .next env => evalL { u, p, obs, call := callL obs fns ext u p depth } env (some f.ret) f.result
        | .brk _ => Model.Log.quiet stuck) log := by
  unfold callL
  rw [hf]
  show runFnL _ _ _ _ = _
  rw [runFnL, bindQ he]
  rfl

/-- **C67** (viii) `e[i] = a` leaves the variable and the position. -/
theorem C67_write (x : String) (i a : Expr) (v w : Val) (k : Nat) (log1 log2 : List ε)
    (ha : (evalL c env none a log).Returns (v, log1)) (hi : (evalL c env none i log1).Returns (w, log2)) (hk : (position w).Returns k) :
    execL c (.assign (.index (.var x) i) a) env log =
      Model.Log.quiet (writePlace env (x, [.index k]) v >>= fun env => pure (.next env)) (log2 ++ c.obs (.write x (isComputed i) k)) := by
  rw [execL, bindL ha]
  rw [bindL (a := (x, [.index k])) (log' := log2)]
  · rw [show writeNotes (.index (.var x) i) (x, [.index k]) = [.write x (isComputed i) k] from rfl, bindL (note_one c log2 _)]
    show ((writePlace env _ v >>= fun a => pure (a, _)) >>= fun z => pure (Flow.next z.1, z.2)) = ((writePlace env _ v >>= fun a => pure (Flow.next a)) >>= fun a => pure (a, _))
    simp only [bind_assoc, pure_bind]
  · unfold Res.Returns
    rw [placeL, placeL, pure_bind, bindL hi, bindQ hk]
    rfl

/-- **C67** (viii) `e[i] op= a` leaves the variable and the position twice, for reading and for writing, with what the operator leaves in between. -/
theorem C67_update (op : BinOp) (x : String) (i a : Expr) (v w old new : Val) (env' : Env) (k : Nat) (log1 log2 : List ε)
    (ha : (evalL c env none a log).Returns (v, log1)) (hi : (evalL c env none i log1).Returns (w, log2)) (hk : (position w).Returns k)
    (ho : (readPlace env (x, [.index k])).Returns old) (hn : (binOp c.u c.p op old v).Returns new)
    (hw : (writePlace env (x, [.index k]) new).Returns env') :
    (execL c (.assignOp op (.index (.var x) i) a) env log).Returns (.next env',
      log2 ++ c.obs (.read x (isComputed i) k) ++ (opNotes op old v).flatMap c.obs ++ c.obs (.write x (isComputed i) k)) := by
  unfold Res.Returns
  rw [execL, bindL ha]
  rw [bindL (a := (x, [.index k])) (log' := log2)]
  · rw [show writeNotes (.index (.var x) i) (x, [.index k]) = [.write x (isComputed i) k] from rfl,
      show readNotes (.index (.var x) i) (x, [.index k]) = [.read x (isComputed i) k] from rfl, bindL (note_one c log2 _), bindQ ho,
      bindL (note_op c _ op old v), bindQ hn, bindL (note_one c _ _), bindQ hw]
    rfl
  · unfold Res.Returns
    rw [placeL, placeL, pure_bind, bindL hi, bindQ hk]
    rfl

/-- **C67** (ix) `e.split_at(i)` leaves the variable, the position and the number of elements behind it. -/
theorem C67_split (want : Option Ty) (e i : Expr) (xs : Array U64) (k : U64) (log1 log2 : List ε) (hk : k.toNat ≤ xs.size)
    (he : (evalL c env none e log).Returns (.words64 xs, log1)) (hi : (evalL c env none i log1).Returns (.usize k, log2)) :
    (evalL c env want (.method e "split_at" [i]) log).Returns
      (.pair (.words64 (xs.extract 0 k.toNat)) (.words64 (xs.extract k.toNat)), log2 ++ c.obs (.split (rootOf e) k.toNat (xs.size - k.toNat))) := by
  have h1 : (applyMethod "split_at" (.words64 xs) [.usize k]).Returns (.pair (.words64 (xs.extract 0 k.toNat)) (.words64 (xs.extract k.toNat))) := by
    show (splitRight xs k.toNat >>= fun right => pure (Val.pair (.words64 (xs.extract 0 k.toNat)) (.words64 right))) = _
    rw [splitRight, if_pos hk]
    rfl
  have h2 : (xs.extract k.toNat).size = xs.size - k.toNat := by simp
  unfold Res.Returns
  rw [evalL, bindL he, evalListL, bind_assoc, bindL hi, evalListL, pure_bind, pure_bind, bindQ h1, ← h2]
  exact bindL (note_one c log2 _)

/-! ## A small program and its complete notes -/

/-- `fn f(a: &[u8], n: usize) -> u64 { let mut b = vec![0u64; n]; for i in 0..n { if (a[i] as u64) < 5 { b[i] = (a[i] as u64) / 3; } else
{ b[i] += (a[i] as u64) >> 2; } } b[n - 1] }` -/
def small : Fn where
  name := "f"
  params := [("a", .vec .u8), ("n", .int .usize)]
  ret := .int .u64
  body := [
    .letVar "b" (some (.vec .u64)) (.vecOf (.lit 0) (.var "n")),
    .forIn "i" (.lit 0) (.var "n") false [
      .ifElse (.bin .lt (.cast (.index (.var "a") (.var "i")) .u64) (.lit 5))
        [.assign (.index (.var "b") (.var "i")) (.bin .div (.cast (.index (.var "a") (.var "i")) .u64) (.lit 3))]
        [.assignOp .add (.index (.var "b") (.var "i")) (.bin .shr (.cast (.index (.var "a") (.var "i")) .u64) (.lit 2))]]]
  result := .index (.var "b") (.bin .sub (.var "n") (.lit 1))
  exported := false

/-- The number and the notes of a run that returns a number. -/
def numbered (m : Res (Val × List Access)) : Option (U64 × List Access) :=
  match m with
  | some (.ok (.u64 x, log)) => some (x, log)
  | _ => none

theorem of_numbered {m : Res (Val × List Access)} {x : U64} {log : List Access} (h : numbered m = some (x, log)) : m.Returns (.u64 x, log) := by
  unfold numbered at h
  split at h
  · cases h; rfl
  · cases h

/-- `f(&[4, 9], 2)` and what it leaves. -/
example : (callL (fun a => [a]) [small] (fun _ => none) 64 .debug 1 "f" [.bytes [4, 9], .usize 2] []).Returns (.u64 2,
    [.alloc 2, .range 2,
      .read "a" true 0, .branch true, .read "a" true 0, .divide 4 3, .write "b" true 0,
      .read "a" true 1, .branch false, .read "a" true 1, .shift 2, .read "b" true 1, .write "b" true 1,
      .read "b" true 1]) :=
  of_numbered (by
    simp only [callL, List.find?, small, decide_true, runFnL, execBlockL, execL, execScopeL]
    decide +kernel)

end Props
