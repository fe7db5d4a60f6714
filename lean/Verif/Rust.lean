/-!
# The fragment of Rust semantics used by the model

`Res α` is the outcome of running a Rust expression of type `α`:
* `pure a`            — it returns `a`;
* `throw e`           — it panics (unwinds) for reason `e`;
* `none` (divergence) — it never finishes (only `loop` below can produce it).

Machine integers are bit vectors: `u8 = BitVec 8`, `u32 = BitVec 32`, `u64 = BitVec 64`, and also
`i64 = BitVec 64` read in two's complement, so that the casts `u64 as i64`, `i64 as u64`,
`i64 as usize`, `usize as i64` (on a 64-bit target) are the identity on bits.
`usize` values are natural numbers; where an operation on `usize` could exceed 64 bits the model uses
`usizeAdd`, elsewhere the comment at the place of use says why it cannot.
-/

namespace Rust

abbrev U8 := BitVec 8
abbrev U32 := BitVec 32
abbrev U64 := BitVec 64
/-- `i64`, as the bits of its two's complement representation. -/
abbrev I64 := BitVec 64

/-- Build profile: `debug` has overflow checks (an arithmetic overflow panics), `release` has none (it wraps). -/
inductive Profile
  | debug
  | release
deriving DecidableEq, Repr

/-- Are arithmetic overflows checked? -/
def Profile.checked : Profile → Bool
  | .debug => true
  | .release => false

/-- Why a computation panicked. -/
inductive Panic
  | explicit  -- `panic!()`
  | bounds    -- index / slice out of range
  | overflow  -- arithmetic overflow (debug profile)
  | capacity  -- `Vec` longer than `isize::MAX` bytes
  | stuck     -- not a panic of Rust: `Source.Semantics` marks ill-typed programs with it, the model never uses it
deriving DecidableEq, Repr

/-- Outcome of a Rust computation; `none` is non-termination. -/
abbrev Res := ExceptT Panic Option

namespace Res

/-- The computation returns `a`. -/
def Returns {α : Type} (m : Res α) (a : α) : Prop := m = pure a

/-- The computation panics. -/
def Panics {α : Type} (m : Res α) : Prop := ∃ e : Panic, m = throw e

/-- The computation runs forever. -/
def Diverges {α : Type} (m : Res α) : Prop := m = (none : Option (Except Panic α))

end Res

/-- `isize::MAX` on a 64-bit target. -/
def isizeMax : Nat := 2 ^ 63 - 1

/-! ## Arithmetic -/

/-- `a + b` on `i64`. -/
def iadd (p : Profile) (a b : I64) : Res I64 :=
  if p.checked && BitVec.saddOverflow a b then throw .overflow else pure (a + b)

/-- `a - b` on `i64`. -/
def isub (p : Profile) (a b : I64) : Res I64 :=
  if p.checked && BitVec.ssubOverflow a b then throw .overflow else pure (a - b)

/-- `a * b` on `i64`. -/
def imul (p : Profile) (a b : I64) : Res I64 :=
  if p.checked && BitVec.smulOverflow a b then throw .overflow else pure (a * b)

/-- `-a` on `i64`. -/
def ineg (p : Profile) (a : I64) : Res I64 :=
  if p.checked && BitVec.negOverflow a then throw .overflow else pure (-a)

/-- `a / b` on `i64` for a positive constant `b` (then it cannot overflow): rounds towards zero. -/
def idiv (a b : I64) : I64 := BitVec.sdiv a b

/-- `a - b` on `u64`. -/
def usub (p : Profile) (a b : U64) : Res U64 :=
  if p.checked && BitVec.usubOverflow a b then throw .overflow else pure (a - b)

/-- `a + b` on `usize`. -/
def usizeAdd (p : Profile) (a b : Nat) : Res Nat :=
  if a + b < 2 ^ 64 then pure (a + b)
  else if p.checked then throw .overflow else pure ((a + b) % 2 ^ 64)

/-- Number of iterations of `for _ in lo..hi` over `i64`. -/
def irangeLen (lo hi : I64) : Nat := (hi.toInt - lo.toInt).toNat

/-! ## Vectors, arrays and slices -/

/-- `v[i]` (read). -/
def vget {α : Type} (v : Array α) (i : Nat) : Res α :=
  match v[i]? with
  | some x => pure x
  | none => throw .bounds

/-- `v[i] = x` (write). -/
def vset {α : Type} (v : Array α) (i : Nat) (x : α) : Res (Array α) :=
  if h : i < v.size then pure (v.set i x h) else throw .bounds

/-- `a[i]` (read) for a fixed-size array and a computed index. -/
def aget {α : Type} {n : Nat} (a : Vector α n) (i : Nat) : Res α :=
  if h : i < n then pure a[i] else throw .bounds

/-- `s[i]` (read) for a byte slice. -/
def sget {α : Type} (s : List α) (i : Nat) : Res α :=
  match s[i]? with
  | some x => pure x
  | none => throw .bounds

/-- `&s[lo..hi]`. -/
def slice {α : Type} (s : List α) (lo hi : Nat) : Res (List α) :=
  if lo ≤ hi ∧ hi ≤ s.length then pure ((s.drop lo).take (hi - lo)) else throw .bounds

/-- `v.split_at(mid).1.to_vec()`. -/
def splitRight {α : Type} (v : Array α) (mid : Nat) : Res (Array α) :=
  if mid ≤ v.size then pure (v.extract mid v.size) else throw .bounds

/-- `vec![x; n]` for elements of `elemSize` bytes. Panics ("capacity overflow") when the vector would
exceed `isize::MAX` bytes. Not modelled: an allocator that runs out of memory (the process aborts). -/
def vecOf {α : Type} (elemSize : Nat) (x : α) (n : Nat) : Res (Array α) :=
  if elemSize * n ≤ isizeMax then pure (Array.replicate n x) else throw .capacity

/-- `x.to_le_bytes()` for `u32` (standard library). -/
def toLeBytes32 (x : U32) : List U8 :=
  (List.range 4).map fun i => (x >>> (8 * i)).setWidth 8

/-- `x.to_le_bytes()` for `u64` (standard library). -/
def toLeBytes64 (x : U64) : List U8 :=
  (List.range 8).map fun i => (x >>> (8 * i)).setWidth 8

/-! ## Control flow -/

/-- `n` iterations of a `for` loop whose loop variable starts at `i`: the loop variable, the mutable
variables `s` of the body, left to right. -/
def forLoop {σ : Type} (i n : Nat) (body : Nat → σ → Res σ) (s : σ) : Res σ :=
  match n with
  | 0 => pure s
  | n + 1 => do
    let s ← body i s
    forLoop (i + 1) n body s

/-- Straight-line code that repeats one statement for the twelve words `w = 0, 1, ..., 11`, in order. -/
def unroll12 {σ : Type} (stmt : Fin 12 → σ → Res σ) (s : σ) : Res σ :=
  (List.finRange 12).foldlM (fun s w => stmt w s) s

/-- `loop { body }`: `Sum.inl` goes round again with new values of the mutable variables, `Sum.inr` is `break`.
Defined as the least fixed point, so that a loop that never breaks is `none` (divergence). -/
def loop {σ β : Type} (body : σ → Res (σ ⊕ β)) (s : σ) : Res β := do
  match (← body s) with
  | .inl s' => loop body s'
  | .inr b => pure b
partial_fixpoint

end Rust
