import Verif.Source.Log

/-! What the two runs of a comparison have in common: the shape of a value, the notes without positions, the statements in front of the
wandering phase, functions with results of a fixed size, the functions that keep their arguments to themselves. -/

namespace Source
open Rust

mutual
/-- The type and the lengths of a value; literals, which are part of the program, remain. -/
def shape : Val → Val
  | .lit n => .lit n
  | .bool _ => .bool false
  | .u8 _ => .u8 0
  | .u32 _ => .u32 0
  | .u64 _ => .u64 0
  | .i64 _ => .i64 0
  | .usize _ => .usize 0
  | .bytes xs => .bytes (List.replicate xs.length 0)
  | .words32 xs => .words32 (Array.replicate xs.size 0)
  | .words64 xs => .words64 (Array.replicate xs.size 0)
  | .pair a b => .pair (shape a) (shape b)
  | .struct fs => .struct (shapes fs)

/-- The shapes of the fields. -/
def shapes : List (String × Val) → List (String × Val)
  | [] => []
  | (x, v) :: fs => (x, shape v) :: shapes fs
end

/-- The functions of other crates return as many bytes for every input. -/
def FixedSize (ext : String → Option (List U8 → List U8)) : Prop :=
  ∀ f h, ext f = some h → ∀ xs ys, (h xs).length = (h ys).length

/-- The notes without the positions, operands and sizes: which branches are taken, how many rounds loops have, which functions are called, and
which variables are accessed, in which order. -/
def control : Access → List Access
  | .read x b _ => [.read x b 0]
  | .write x b _ => [.write x b 0]
  | .part _ _ => [.part 0 0]
  | .split _ _ _ | .alloc _ => []
  | .divide _ _ => [.divide 0 0]
  | .shift _ => [.shift 0]
  | .call f => [.call f]
  | .branch b => [.branch b]
  | .range n => [.range n]

/-- `for _tau in 1..=time_cost`, the wandering phase (lyra2.rs 531, lyra2mod/mod.rs 509). -/
def isWander : Stmt → Bool
  | .forIn x _ _ _ _ => x == "_tau"
  | _ => false

/-- The part of a function in front of the wandering phase (lyra2.rs 245-530, lyra2mod/mod.rs 222-508), made into a function that returns 0. -/
def setupOf (f : Fn) : Fn := { f with body := f.body.takeWhile (!isWander ·), result := .lit 0, ret := .int .i64 }

/-- The functions with parameters of which no observer learns anything, and which of their arguments are secret. -/
def constantTime : List (String × List Bool) :=
  [("utils::read_u32_le", [true]), ("utils::read_u64_le", [true]),
    ("lyra2::rotr64", [true, false]), ("lyra2::g", [true, true, true, true]), ("lyra2::round_lyra", [true]), ("lyra2::blake2b_lyra", [true]),
    ("lyra2::reduced_blake2b_lyra", [true]), ("lyra2::squeeze", [true, false]), ("lyra2::absorb_block", [true, true]),
    ("lyra2::absorb_block_blake2_safe", [true, true]),
    ("lyra2mod::rotr64", [true, false]), ("lyra2mod::g", [true, true, true, true]), ("lyra2mod::round_lyra", [true]),
    ("lyra2mod::blake2b_lyra", [true]), ("lyra2mod::reduced_blake2b_lyra", [true]), ("lyra2mod::squeeze", [true, false]),
    ("lyra2mod::absorb_block", [true, true]), ("lyra2mod::absorb_block_blake2_safe", [true, true]),
    ("cubehash::input_block", [true, true]), ("cubehash::sixteen_rounds", [true]), ("cubehash::sum", [true]),
    ("bmw::circular_left", [true, false]), ("bmw::compress", [true, true]), ("bmw::sum", [true])]

end Source
