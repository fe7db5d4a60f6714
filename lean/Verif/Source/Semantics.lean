import Verif.Rust
import Verif.Source.Syntax

/-!
# Meaning of the fragment of Rust

An interpreter for `Source.Syntax`. It follows the Rust reference: operands are evaluated from left to right; the right
hand side of an assignment is evaluated before the place on its left; a `for` loop runs over the values of its range;
integer arithmetic that leaves the range of its type panics when overflow checks are on and wraps when they are off;
indexing out of range panics.

Deliberate restrictions:
* values are copied: there are no references in the fragment through which a change could be observed elsewhere;
* `panic .stuck` stands for everything that the Rust compiler rejects (an unknown name, operands of different types)
  and for what the fragment leaves out (`break` inside `for`, division by zero, other methods);
* `usize` has `u` bits; the properties take 32 and 64. Its values are kept in 64 bits, below `2 ^ u`;
* an allocator that runs out of memory is not modelled.
-/

namespace Source
open Rust

/-- Values. Numbers carry their type; `lit` is a literal whose type is still open. -/
inductive Val
  | lit (n : Int)
  | bool (b : Bool)
  | u8 (x : BitVec 8)
  | u32 (x : BitVec 32)
  | u64 (x : BitVec 64)
  | i64 (x : BitVec 64)
  | usize (x : BitVec 64)
  /-- `Vec<u8>`, `&[u8]`, `[u8; n]`. -/
  | bytes (xs : List U8)
  /-- `[u32; n]`. -/
  | words32 (xs : Array U32)
  /-- `Vec<u64>`, `&[u64]`, `[u64; n]`. -/
  | words64 (xs : Array U64)
  | pair (a b : Val)
  | struct (fields : List (String × Val))
deriving Inhabited, Repr

/-- Ill-typed, or outside the fragment. -/
def stuck {α : Type} : Res α := throw .stuck

/-- The local variables, innermost first. -/
abbrev Env := List (String × Val)

/-- The value of a variable. -/
def Env.get (x : String) : Env → Res Val
  | [] => stuck
  | (y, v) :: env => if x = y then pure v else get x env

/-- Changes the innermost variable called `x`. -/
def Env.set (x : String) (v : Val) : Env → Res Env
  | [] => stuck
  | (y, w) :: env => if x = y then pure ((y, v) :: env) else do pure ((y, w) :: (← set x v env))

/-- Leaving a block: only the `n` outermost variables remain. -/
def Env.leave (n : Nat) (env : Env) : Env := env.drop (env.length - n)

/-! ## Numbers -/

/-- A literal at a type; the compiler rejects one that does not fit, for `usize` on the smallest target considered. -/
def ofLit (t : IntTy) (n : Int) : Res Val :=
  match t with
  | .u8 => if 0 ≤ n ∧ n < 2 ^ 8 then pure (.u8 (BitVec.ofInt 8 n)) else stuck
  | .u32 => if 0 ≤ n ∧ n < 2 ^ 32 then pure (.u32 (BitVec.ofInt 32 n)) else stuck
  | .u64 => if 0 ≤ n ∧ n < 2 ^ 64 then pure (.u64 (BitVec.ofInt 64 n)) else stuck
  | .i64 => if -2 ^ 63 ≤ n ∧ n < 2 ^ 63 then pure (.i64 (BitVec.ofInt 64 n)) else stuck
  | .usize => if 0 ≤ n ∧ n < 2 ^ 32 then pure (.usize (BitVec.ofInt 64 n)) else stuck

/-- A value where a number of type `t` is wanted. -/
def asInt (t : IntTy) : Val → Res Val
  | .lit n => ofLit t n
  | .u8 x => if t = .u8 then pure (.u8 x) else stuck
  | .u32 x => if t = .u32 then pure (.u32 x) else stuck
  | .u64 x => if t = .u64 then pure (.u64 x) else stuck
  | .i64 x => if t = .i64 then pure (.i64 x) else stuck
  | .usize x => if t = .usize then pure (.usize x) else stuck
  | _ => stuck

/-- A value where type `t` is wanted. -/
def asTy (t : Option Ty) (v : Val) : Res Val :=
  match t, v with
  | some (.int t), v => asInt t v
  | _, v => pure v

/-- The value of an assignment takes the type of what it replaces. -/
def likeOld (old v : Val) : Res Val :=
  match v, old with
  | .lit n, .u8 _ => ofLit .u8 n
  | .lit n, .u32 _ => ofLit .u32 n
  | .lit n, .u64 _ => ofLit .u64 n
  | .lit n, .i64 _ => ofLit .i64 n
  | .lit n, .usize _ => ofLit .usize n
  | v, _ => pure v

/-- The result of an operation of an unsigned type with `w` bits whose exact value is `e`. -/
def unsigned (p : Profile) (w : Nat) (e : Int) : Res (BitVec w) :=
  if p.checked ∧ ¬(0 ≤ e ∧ e < 2 ^ w) then throw .overflow else pure (BitVec.ofInt w e)

/-- The result of an operation of a signed type with `w` bits whose exact value is `e`. -/
def signed (p : Profile) (w : Nat) (e : Int) : Res (BitVec w) :=
  if p.checked ∧ ¬(-2 ^ (w - 1) ≤ e ∧ e < 2 ^ (w - 1)) then throw .overflow else pure (BitVec.ofInt w e)

/-- The result of an operation of `usize` whose exact value is `e`. -/
def unsignedSize (u : Nat) (p : Profile) (e : Int) : Res (BitVec 64) := do
  pure ((← unsigned p u e).setWidth 64)

/-- Exact result of `+`, `-`, `*`, `/`, `%`; the last two round towards zero. -/
def exact (op : BinOp) (a b : Int) : Option Int :=
  match op with
  | .add => some (a + b)
  | .sub => some (a - b)
  | .mul => some (a * b)
  | .div => if b = 0 then none else some (a.tdiv b)
  | .rem => if b = 0 then none else some (a.tmod b)
  | _ => none

/-- `&`, `|`, `^`. -/
def bitwise {w : Nat} (op : BinOp) (a b : BitVec w) : Option (BitVec w) :=
  match op with
  | .and => some (a &&& b)
  | .or => some (a ||| b)
  | .xor => some (a ^^^ b)
  | _ => none

/-- A binary operator on two numbers of an unsigned type; `fit` brings the exact result into the type. -/
def unsignedOp {w : Nat} (fit : Int → Res (BitVec w)) (mk : BitVec w → Val) (op : BinOp) (a b : BitVec w) : Res Val :=
  match exact op a.toNat b.toNat with
  | some e => do pure (mk (← fit e))
  | none =>
    match bitwise op a b with
    | some x => pure (mk x)
    | none =>
      match op with
      | .lt => pure (.bool (a.toNat < b.toNat))
      | .eq => pure (.bool (a.toNat = b.toNat))
      | _ => stuck

/-- A binary operator on two numbers of a signed type. -/
def signedOp {w : Nat} (p : Profile) (mk : BitVec w → Val) (op : BinOp) (a b : BitVec w) : Res Val :=
  match exact op a.toInt b.toInt with
  | some e => do pure (mk (← signed p w e))
  | none =>
    match bitwise op a b with
    | some x => pure (mk x)
    | none =>
      match op with
      | .lt => pure (.bool (a.toInt < b.toInt))
      | .eq => pure (.bool (a.toInt = b.toInt))
      | _ => stuck

/-- A binary operator, other than a shift, on two numbers of the same type. -/
def sameOp (u : Nat) (p : Profile) (op : BinOp) : Val → Val → Res Val
  | .u8 a, .u8 b => unsignedOp (unsigned p 8) .u8 op a b
  | .u32 a, .u32 b => unsignedOp (unsigned p 32) .u32 op a b
  | .u64 a, .u64 b => unsignedOp (unsigned p 64) .u64 op a b
  | .usize a, .usize b => unsignedOp (unsignedSize u p) .usize op a b
  | .i64 a, .i64 b => signedOp p .i64 op a b
  | _, _ => stuck

/-- A shift by `k` places; too large a `k` is an overflow, and without checks only its low bits count. -/
def shiftBy {w : Nat} (p : Profile) (op : BinOp) (a : BitVec w) (k : Nat) : Res (BitVec w) :=
  if p.checked ∧ w ≤ k then throw .overflow
  else match op with
    | .shl => pure (a <<< (k % w))
    | .shr => pure (a >>> (k % w))
    | _ => stuck

/-- The number of places of a shift; a literal has to be one that every integer type holds. -/
def places : Val → Res Nat
  | .lit n => if 0 ≤ n ∧ n < 2 ^ 7 then pure n.toNat else stuck
  | .u8 x => pure x.toNat
  | .u32 x => pure x.toNat
  | _ => stuck

/-- A shift of an unsigned number. -/
def shiftOp (p : Profile) (op : BinOp) (a b : Val) : Res Val :=
  match a with
  | .u32 x => do pure (.u32 (← shiftBy p op x (← places b)))
  | .u64 x => do pure (.u64 (← shiftBy p op x (← places b)))
  | _ => stuck

/-- Two literals, and numbers computed from literals, have a type that only the compiler knows. It does not matter which, because the
operands either are small enough for every integer type or do not exceed the result, which is checked where it is used. -/
def openOp (m n e : Int) : Bool := decide (0 ≤ m ∧ 0 ≤ n ∧ 0 ≤ e ∧ (m < 2 ^ 7 ∧ n < 2 ^ 7 ∨ m ≤ e ∧ n ≤ e))

/-- A binary operator. A literal takes the type of the other operand; on two literals the result is exact. -/
def binOp (u : Nat) (p : Profile) (op : BinOp) (a b : Val) : Res Val :=
  match op with
  | .shl => shiftOp p .shl a b
  | .shr => shiftOp p .shr a b
  | op =>
    match a, b with
    | .lit m, .lit n =>
      match exact op m n with
      | some e => if openOp m n e then pure (.lit e) else stuck
      | none => stuck
    | .lit m, b => do sameOp u p op (← likeOld b (.lit m)) b
    | a, .lit n => do sameOp u p op a (← likeOld a (.lit n))
    | a, b => sameOp u p op a b

/-- `-a`. -/
def negate (p : Profile) : Val → Res Val
  | .lit n => pure (.lit (-n))
  | .i64 a => do pure (.i64 (← signed p 64 (-a.toInt)))
  | _ => stuck

/-- `a as t`: the value modulo the size of `t`. -/
def castTo (u : Nat) (t : IntTy) (n : Int) : Val :=
  match t with
  | .u8 => .u8 (BitVec.ofInt 8 n)
  | .u32 => .u32 (BitVec.ofInt 32 n)
  | .u64 => .u64 (BitVec.ofInt 64 n)
  | .i64 => .i64 (BitVec.ofInt 64 n)
  | .usize => .usize ((BitVec.ofInt u n).setWidth 64)

/-- The number that an integer stands for; a literal has to be one that every integer type holds. -/
def Val.num : Val → Res Int
  | .lit n => if 0 ≤ n ∧ n < 2 ^ 7 then pure n else stuck
  | .u8 x => pure x.toNat
  | .u32 x => pure x.toNat
  | .u64 x => pure x.toNat
  | .usize x => pure x.toNat
  | .i64 x => pure x.toInt
  | _ => stuck

/-- The type of the values of a range: that of its bounds. -/
def rangeVal (lo hi : Val) (n : Int) : Val :=
  match lo, hi with
  | .u64 _, _ | .lit _, .u64 _ => .u64 (BitVec.ofInt 64 n)
  | .i64 _, _ | .lit _, .i64 _ => .i64 (BitVec.ofInt 64 n)
  | .usize _, _ | .lit _, .usize _ => .usize (BitVec.ofInt 64 n)
  | _, _ => .lit n

/-! ## Sequences -/

/-- An index. -/
def position : Val → Res Nat
  | .lit n => if 0 ≤ n ∧ n < 2 ^ 32 then pure n.toNat else stuck
  | .usize x => pure x.toNat
  | _ => stuck

/-- `v[i]`. -/
def item (v : Val) (i : Nat) : Res Val :=
  match v with
  | .bytes xs => do pure (.u8 (← sget xs i))
  | .words32 xs => do pure (.u32 (← vget xs i))
  | .words64 xs => do pure (.u64 (← vget xs i))
  | _ => stuck

/-- `v[i] = x`, as a new value of `v`. -/
def setItem (v : Val) (i : Nat) (x : Val) : Res Val :=
  match v with
  | .bytes xs => do
    match (← asInt .u8 x) with
    | .u8 b => if i < xs.length then pure (.bytes (xs.set i b)) else throw .bounds
    | _ => stuck
  | .words32 xs => do
    match (← asInt .u32 x) with
    | .u32 b => do pure (.words32 (← vset xs i b))
    | _ => stuck
  | .words64 xs => do
    match (← asInt .u64 x) with
    | .u64 b => do pure (.words64 (← vset xs i b))
    | _ => stuck
  | _ => stuck

/-- `v[lo..hi]`. -/
def part (v : Val) (lo hi : Nat) : Res Val :=
  match v with
  | .bytes xs => do pure (.bytes (← slice xs lo hi))
  | .words32 xs => do pure (.words32 (← slice xs.toList lo hi).toArray)
  | _ => stuck

/-- `v[..hi].clone_from_slice(s)`, as a new value of `v`: panics when the lengths differ. -/
def overwrite (v : Val) (hi : Nat) (s : Val) : Res Val :=
  match v, s with
  | .bytes xs, .bytes ys => if ys.length = hi then pure (.bytes (ys ++ xs.drop hi)) else throw .explicit
  | .words32 xs, .words32 ys => if ys.size = hi then pure (.words32 (ys ++ (xs.toList.drop hi).toArray)) else throw .explicit
  | _, _ => stuck

/-- `isize::MAX`: no vector has more bytes. -/
def maxBytes (u : Nat) : Nat := 2 ^ (u - 1) - 1

/-- `n` is the length of a vector with elements of `size` bytes. -/
def reserve (u size n : Nat) : Res Unit :=
  if size * n ≤ maxBytes u then pure () else throw .capacity

/-- `vec![x; n]` and `[x; n]` for elements of type `t`; only the former can exceed the capacity of a vector. -/
def repeated (u : Nat) (t : Option Ty) (x : Val) (n : Nat) : Res Val :=
  match t with
  | some (.vec .u8) => do
    match (← asInt .u8 x) with
    | .u8 b => do
      reserve u 1 n
      pure (.bytes (List.replicate n b))
    | _ => stuck
  | some (.vec .u64) => do
    match (← asInt .u64 x) with
    | .u64 b => do
      reserve u 8 n
      pure (.words64 (Array.replicate n b))
    | _ => stuck
  | some (.array .u32 _) => do
    match (← asInt .u32 x) with
    | .u32 b => pure (.words32 (Array.replicate n b))
    | _ => stuck
  | _ => stuck

/-- `[x₀, x₁, ...]` for elements of type `t`, and the empty vector. -/
def listed (t : Option Ty) (xs : List Val) : Res Val :=
  match t with
  | some (.array .u64 _) => do
    let ys ← xs.mapM fun x => do
      match (← asInt .u64 x) with
      | .u64 b => pure b
      | _ => stuck
    pure (.words64 ys.toArray)
  | some (.array .u32 _) => do
    let ys ← xs.mapM fun x => do
      match (← asInt .u32 x) with
      | .u32 b => pure b
      | _ => stuck
    pure (.words32 ys.toArray)
  | some (.vec .u8) => if xs.isEmpty then pure (.bytes []) else stuck
  | _ => stuck

/-- The methods that leave their receiver unchanged. -/
def applyMethod (m : String) (v : Val) (args : List Val) : Res Val :=
  match m, v, args with
  | "len", .bytes xs, [] => pure (.usize (BitVec.ofNat 64 xs.length))
  | "clone", v, [] => pure v
  | "to_vec", v, [] => pure v
  | "to_le_bytes", .u32 x, [] => pure (.bytes (toLeBytes32 x))
  | "to_le_bytes", .u64 x, [] => pure (.bytes (toLeBytes64 x))
  | "wrapping_add", .u32 x, [b] => do
    match (← asInt .u32 b) with
    | .u32 y => pure (.u32 (x + y))
    | _ => stuck
  | "wrapping_add", .u64 x, [b] => do
    match (← asInt .u64 b) with
    | .u64 y => pure (.u64 (x + y))
    | _ => stuck
  | "wrapping_sub", .u32 x, [b] => do
    match (← asInt .u32 b) with
    | .u32 y => pure (.u32 (x - y))
    | _ => stuck
  | "wrapping_sub", .u64 x, [b] => do
    match (← asInt .u64 b) with
    | .u64 y => pure (.u64 (x - y))
    | _ => stuck
  | "wrapping_sub", .i64 x, [b] => do
    match (← asInt .i64 b) with
    | .i64 y => pure (.i64 (x - y))
    | _ => stuck
  | "split_at", .words64 xs, [i] => do
    let i ← position i
    let right ← splitRight xs i
    pure (.pair (.words64 (xs.extract 0 i)) (.words64 right))
  | _, _, _ => stuck

/-- The new value of the receiver of a method that changes it. -/
def applyMutator (u : Nat) (m : String) (v : Val) (args : List Val) : Res Val :=
  match m, v, args with
  | "extend_from_slice", .bytes xs, [.bytes ys] => do
    reserve u 1 (xs.length + ys.length)
    pure (.bytes (xs ++ ys))
  | "push", .bytes xs, [b] => do
    match (← asInt .u8 b) with
    | .u8 b => do
      reserve u 1 (xs.length + 1)
      pure (.bytes (xs ++ [b]))
    | _ => stuck
  | "resize", .words64 xs, [n, x] => do
    match (← asInt .u64 x), (← position n) with
    | .u64 b, n => do
      reserve u 8 n
      pure (.words64 (xs.extract 0 n ++ Array.replicate (n - xs.size) b))
    | _, _ => stuck
  | _, _, _ => stuck

/-! ## Expressions -/

/-- What an expression depends on besides the local variables: the width of `usize`, the overflow checks
and the functions of the crate. -/
structure Ctx where
  u : Nat
  p : Profile
  call : String → List Val → Res Val

/-- The value of a field. -/
def getField (f : String) : Val → Res Val
  | .struct fs => Env.get f fs
  | _ => stuck

/-- A struct with one field changed. -/
def setField (f : String) (v : Val) : Val → Res Val
  | .struct fs => do pure (.struct (← Env.set f v fs))
  | _ => stuck

mutual
/-- The value of an expression; `want` is the type that its context requires, where one is declared. -/
def eval (c : Ctx) (env : Env) (want : Option Ty) : Expr → Res Val
  | .lit n => asTy want (.lit n)
  | .var x => do asTy want (← env.get x)
  | .const x => c.call x []
  | .neg e => do
    let v ← eval c env none e
    asTy want (← negate c.p v)
  | .bin op a b => do
    let x ← eval c env none a
    let y ← eval c env none b
    asTy want (← binOp c.u c.p op x y)
  | .cast e t => do
    let v ← eval c env none e
    pure (castTo c.u t (← v.num))
  | .index e i => do
    let v ← eval c env none e
    let i ← eval c env none i
    item v (← position i)
  | .slice e lo hi => do
    let v ← eval c env none e
    let lo ← eval c env none lo
    let hi ← eval c env none hi
    part v (← position lo) (← position hi)
  | .prefix e hi => do
    let v ← eval c env none e
    let hi ← eval c env none hi
    part v 0 (← position hi)
  | .field e f => do
    let v ← eval c env none e
    getField f v
  | .call f args => do
    let vs ← evalList c env args
    if f = "Vec::with_capacity" then listed want [] else c.call f vs
  | .method e m args => do
    let v ← eval c env none e
    let vs ← evalList c env args
    applyMethod m v vs
  | .vecOf x n => do
    let x ← eval c env none x
    let n ← eval c env none n
    repeated c.u want x (← position n)
  | .arrayOf x n => do
    let x ← eval c env none x
    repeated c.u want x n
  | .list es => do
    let vs ← evalList c env es
    listed want vs
  | .struct fields es => do
    let vs ← evalFields c env fields es
    pure (.struct vs)

/-- Arguments, from left to right. -/
def evalList (c : Ctx) (env : Env) : List Expr → Res (List Val)
  | [] => pure []
  | e :: es => do
    let v ← eval c env none e
    let vs ← evalList c env es
    pure (v :: vs)

/-- The fields of a struct literal, from left to right. -/
def evalFields (c : Ctx) (env : Env) (fields : List (String × Ty)) : List Expr → Res (List (String × Val))
  | [] => pure []
  | e :: es =>
    match fields with
    | (f, t) :: fields => do
      let v ← eval c env (some t) e
      let vs ← evalFields c env fields es
      pure ((f, v) :: vs)
    | [] => stuck
end

/-! ## Places -/

/-- A step from a variable towards a part of it. -/
inductive Step
  | index (i : Nat)
  | field (f : String)

/-- The place that an expression denotes: a variable and the way to a part of it. Its indices are evaluated here. -/
def place (c : Ctx) (env : Env) : Expr → Res (String × List Step)
  | .var x => pure (x, [])
  | .index e i => do
    let (x, steps) ← place c env e
    let i ← eval c env none i
    pure (x, steps ++ [.index (← position i)])
  | .field e f => do
    let (x, steps) ← place c env e
    pure (x, steps ++ [.field f])
  | _ => stuck

/-- The part of a value. -/
def readSteps : List Step → Val → Res Val
  | [], v => pure v
  | .index i :: steps, v => do readSteps steps (← item v i)
  | .field f :: steps, v => do readSteps steps (← getField f v)

/-- The value with a part of it replaced. -/
def writeSteps (new : Val) : List Step → Val → Res Val
  | [], v => likeOld v new
  | .index i :: steps, v => do
    if steps.isEmpty then setItem v i new else stuck
  | .field f :: steps, v => do
    let w ← writeSteps new steps (← getField f v)
    setField f w v

/-- Writes to a place. -/
def writePlace (env : Env) (pl : String × List Step) (new : Val) : Res Env := do
  let v ← env.get pl.1
  env.set pl.1 (← writeSteps new pl.2 v)

/-- Reads a place. -/
def readPlace (env : Env) (pl : String × List Step) : Res Val := do
  readSteps pl.2 (← env.get pl.1)

/-! ## Statements -/

/-- How a statement ends: normally, or with a `break` on its way out of the enclosing `loop`. -/
inductive Flow
  | next (env : Env)
  | brk (env : Env)

mutual
/-- Runs a statement. -/
def exec (c : Ctx) : Stmt → Env → Res Flow
  | .letVar x t e, env => do
    let v ← eval c env t e
    pure (.next ((x, v) :: env))
  | .letSnd x e, env => do
    match (← eval c env none e) with
    | .pair _ v => pure (.next ((x, v) :: env))
    | _ => stuck
  | .assign l e, env => do
    let v ← eval c env none e
    let pl ← place c env l
    pure (.next (← writePlace env pl v))
  | .assignOp op l e, env => do
    let v ← eval c env none e
    let pl ← place c env l
    let old ← readPlace env pl
    pure (.next (← writePlace env pl (← binOp c.u c.p op old v)))
  | .mutate l m args, env =>
    match l, m with
    | .prefix l hi, "clone_from_slice" => do
      let pl ← place c env l
      let old ← readPlace env pl
      let hi ← position (← eval c env none hi)
      let _ ← part old 0 hi
      match (← evalList c env args) with
      | [s] => do pure (.next (← writePlace env pl (← overwrite old hi s)))
      | _ => stuck
    | l, m => do
      let pl ← place c env l
      let vs ← evalList c env args
      let old ← readPlace env pl
      pure (.next (← writePlace env pl (← applyMutator c.u m old vs)))
  | .panic, _ => throw .explicit
  | .ifElse b t e, env => do
    match (← eval c env none b) with
    | .bool true => execScope c env.length t env
    | .bool false => execScope c env.length e env
    | _ => stuck
  | .forIn x lo hi incl body, env => do
    let lo ← eval c env none lo
    let hi ← eval c env none hi
    let a ← lo.num
    let b ← hi.num
    let n := (b - a + (if incl then 1 else 0)).toNat
    let env ← forLoop 0 n (fun k env => do
      match (← execScope c env.length body ((x, rangeVal lo hi (a + k)) :: env)) with
      | .next env => pure env
      | .brk _ => stuck) env
    pure (.next env)
  | .loop body, env => do
    let env ← Rust.loop (fun env => do
      match (← execScope c env.length body env) with
      | .next env => pure (.inl env)
      | .brk env => pure (.inr env)) env
    pure (.next env)
  | .break, env => pure (.brk env)

/-- Runs statements in order. -/
def execBlock (c : Ctx) : List Stmt → Env → Res Flow
  | [], env => pure (.next env)
  | s :: ss, env => do
    match (← exec c s env) with
    | .next env => execBlock c ss env
    | .brk env => pure (.brk env)

/-- Runs a block and leaves its scope: only the `n` outermost variables remain. -/
def execScope (c : Ctx) (n : Nat) (ss : List Stmt) (env : Env) : Res Flow := do
  match (← execBlock c ss env) with
  | .next env => pure (.next (env.leave n))
  | .brk env => pure (.brk (env.leave n))
end

/-! ## Functions -/

/-- The parameters of a function with the values of the arguments. -/
def bindArgs : List (String × Ty) → List Val → Res Env
  | [], [] => pure []
  | (x, t) :: ps, v :: vs => do
    let v ← asTy (some t) v
    let env ← bindArgs ps vs
    pure ((x, v) :: env)
  | _, _ => stuck

/-- Calls a function. -/
def runFn (c : Ctx) (f : Fn) (args : List Val) : Res Val := do
  let env ← bindArgs f.params args
  match (← execBlock c f.body env) with
  | .next env => eval c env (some f.ret) f.result
  | .brk _ => stuck

/-- Calls the function of the crate with the given name. `ext` are the functions of other crates: each maps bytes to
bytes. `depth` bounds the number of nested calls; beyond it the result is that of a program that never returns. -/
def call (fns : List Fn) (ext : String → Option (List U8 → List U8)) (u : Nat) (p : Profile) :
    (depth : Nat) → String → List Val → Res Val
  | 0, _, _ => (none : Option (Except Panic Val))
  | depth + 1, name, args =>
    match fns.find? (·.name = name) with
    | some f => runFn { u, p, call := call fns ext u p depth } f args
    | none =>
      match ext name, args with
      | some h, [.bytes xs] => pure (.bytes (h xs))
      | _, _ => stuck

end Source
