import Verif.Source.Semantics
import Verif.Source.Typing

/-! Which values of the interpreter `Source/Semantics.lean` belong to a type of `Source/Typing.lean`. -/

namespace Source

mutual
/-- The value has the type. A literal whose type is still open has every integer type. The length of an array is that of its type. `usize` has `u`
bits: its numbers are below `2 ^ u`. A vector or slice of bytes has at most `isize::MAX` of them. -/
def Val.IsOf (u : Nat) (structs : List (String × List (String × Ty))) : Val → Kind → Prop
  | .lit _, k => ∃ t, k = .int t
  | .bool _, k => k = .bool
  | .u8 _, k => k = .int .u8
  | .u32 _, k => k = .int .u32
  | .u64 _, k => k = .int .u64
  | .i64 _, k => k = .int .i64
  | .usize x, k => x.toNat < 2 ^ u ∧ k = .int .usize
  | .bytes xs, k => xs.length ≤ maxBytes u ∧ (k = .ty (.vec .u8) ∨ k = .ty (.array .u8 xs.length))
  | .words32 xs, k => k = .ty (.vec .u32) ∨ k = .ty (.array .u32 xs.size)
  | .words64 xs, k => k = .ty (.vec .u64) ∨ k = .ty (.array .u64 xs.size)
  | .pair a b, k => ∃ t, Val.IsOf u structs a (.ty (.vec t)) ∧ Val.IsOf u structs b (.ty (.vec t)) ∧ k = .halves t
  | .struct fs, k => ∃ n ds, (n, ds) ∈ structs ∧ FieldsOf u structs fs ds ∧ k = .ty (.struct n)

/-- The values are those of the declared fields. -/
def FieldsOf (u : Nat) (structs : List (String × List (String × Ty))) : List (String × Val) → List (String × Ty) → Prop
  | [], ds => ds = []
  | (x, v) :: fs, ds => ∃ t ds', ds = (x, t) :: ds' ∧ Val.IsOf u structs v (.ty t) ∧ FieldsOf u structs fs ds'
end

/-- The values have the types, one by one. -/
def ValsOf (u : Nat) (structs : List (String × List (String × Ty))) : List Val → List Ty → Prop
  | [], ts => ts = []
  | v :: vs, ts => ∃ t ts', ts = t :: ts' ∧ v.IsOf u structs (.ty t) ∧ ValsOf u structs vs ts'

/-- The local variables have the types. -/
def Env.IsOf (u : Nat) (structs : List (String × List (String × Ty))) : Env → Types → Prop
  | [], g => g = []
  | (x, v) :: env, g => ∃ k g', g = (x, k) :: g' ∧ v.IsOf u structs k ∧ Env.IsOf u structs env g'

end Source
