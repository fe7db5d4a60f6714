import Lean.ToExpr

/-!
# Abstract syntax of the fragment of Rust in which /repo/src is written

`Source.Parser` turns the text of the source files into these terms and `Source.Semantics` says what they mean.
Types of expressions are not recorded: values carry their type at run time, and a numeric literal takes the type of
what it is combined with.
-/

namespace Source

/-- The integer types that occur. -/
inductive IntTy
  | u8 | u32 | u64 | i64 | usize
deriving DecidableEq, Repr, Inhabited, Lean.ToExpr

/-- The types that occur in declarations. -/
inductive Ty
  | int (t : IntTy)
  /-- `Vec<t>`, and `&[t]`. -/
  | vec (t : IntTy)
  /-- `[t; n]`. -/
  | array (t : IntTy) (n : Nat)
  | struct (name : String)
deriving DecidableEq, Repr, Inhabited, Lean.ToExpr

/-- Binary operators. -/
inductive BinOp
  | add | sub | mul | div | rem | and | or | xor | shl | shr | lt | eq
deriving DecidableEq, Repr, Inhabited, Lean.ToExpr

/-- Expressions. All of them are free of side effects except for panics. References `&e` are written as `e`. -/
inductive Expr
  | lit (n : Nat)
  | var (x : String)
  /-- A constant item, under its full name. -/
  | const (name : String)
  | neg (e : Expr)
  | bin (op : BinOp) (a b : Expr)
  /-- `e as t`. -/
  | cast (e : Expr) (t : IntTy)
  /-- `e[i]`. -/
  | index (e i : Expr)
  /-- `e[lo..hi]`. -/
  | slice (e lo hi : Expr)
  /-- `e[..hi]`. -/
  | prefix (e hi : Expr)
  | field (e : Expr) (f : String)
  /-- A call of a function, under its full name. -/
  | call (f : String) (args : List Expr)
  | method (e : Expr) (m : String) (args : List Expr)
  /-- `vec![x; n]`. -/
  | vecOf (x n : Expr)
  /-- `[x; n]`. -/
  | arrayOf (x : Expr) (n : Nat)
  /-- `[e₀, e₁, ...]`, and `vec![]`. -/
  | list (es : List Expr)
  /-- A struct literal; the types of the fields are those of its declaration. -/
  | struct (fields : List (String × Ty)) (es : List Expr)
deriving Repr, Inhabited, Lean.ToExpr

/-- Statements. -/
inductive Stmt
  /-- `let x = e;` and `let x: t = e;`. -/
  | letVar (x : String) (t : Option Ty) (e : Expr)
  /-- `let (_, x) = e;`. -/
  | letSnd (x : String) (e : Expr)
  /-- `place = e;`. -/
  | assign (place e : Expr)
  /-- `place op= e;`. -/
  | assignOp (op : BinOp) (place e : Expr)
  /-- `place.m(args);` for a method that changes its receiver. -/
  | mutate (place : Expr) (m : String) (args : List Expr)
  /-- `panic!()`. -/
  | panic
  | ifElse (c : Expr) (t e : List Stmt)
  /-- `for x in lo..hi { body }`, or `lo..=hi` when `incl`. -/
  | forIn (x : String) (lo hi : Expr) (incl : Bool) (body : List Stmt)
  | loop (body : List Stmt)
  | break
deriving Repr, Inhabited, Lean.ToExpr

/-- A function, under its full name: the path in the crate. A constant item is a function without parameters. `exported`: it is declared
`pub`. -/
structure Fn where
  name : String
  params : List (String × Ty)
  ret : Ty
  body : List Stmt
  result : Expr
  exported : Bool
deriving Repr, Inhabited, Lean.ToExpr

end Source
