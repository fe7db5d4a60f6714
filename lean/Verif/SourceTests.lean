import Verif.Source.Crate
import Verif.Source.Digests
import Verif.Source.Semantics
import Verif.Tests

/-!
The test vectors of the repository evaluated by the interpreter of the source text. Like `Tests.lean`, these are single
inputs: evidence that the parser and the interpreter read Rust as the compiler does, not proofs of any property.
-/

namespace SourceTests
open Rust Source Tests

/-- The result of a call as text. -/
def run (u : Nat) (p : Profile) (name : String) (args : List Val) : String :=
  match (call crate (Source.digests Tests.digests) u p 20 name args).run with
  | none => "diverges"
  | some (.error .stuck) => "stuck"
  | some (.error _) => "panics"
  | some (.ok (.bytes x)) => hex x
  | some (.ok _) => "not bytes"

/-- A string as a value. -/
def str (s : String) : Val := .bytes (bytes s)

-- src/lyra2.rs, tests
#guard run 64 .debug "lyra2::sum" [str "abc"] = "8f63758bd178f014ea3fd4df09ff0a61646dc574a0b6bcf2890ec529a6a7360c"
#guard run 64 .release "lyra2::sum" [str "abc"] = "8f63758bd178f014ea3fd4df09ff0a61646dc574a0b6bcf2890ec529a6a7360c"
#guard run 64 .debug "lyra2::lyra2" [.u64 48, str "脇山珠美ちゃんかわいい！", str "脇山珠美ちゃんかわいい！", .u64 1, .u64 3, .u64 4] =
  "c937cfe0ee21a8e7c1d1871245ea717457edbee2de8bf544e50f807349a3460c52cb6bb10bd0b7328504bc2ad984e1f3"
#guard run 64 .debug "lyra2::lyra2" [.u64 16, str "😀😁😂", str "😀😁😂", .u64 1, .u64 4, .u64 2] = "372557ef600c8c76bedd91ecd5a01f45"
#guard run 64 .debug "lyra2::lyra2" [.u64 97, str "abc", str "abc", .u64 1, .u64 4, .u64 4] = "panics"

-- src/lyra2mod/mod.rs, tests
#guard run 64 .debug "lyra2mod::sum" [str "abc"] = "0c36444f2885b72f3528af3b1f59174f8fd5c20b712988306962784c5f8ac462"
#guard run 64 .debug "lyra2mod::lyra2mod" [.u64 16, str "😀😁😂", str "😀😁😂", .u64 1, .u64 4, .u64 2] = "3cd143a8903f35aa32fbe9395706cfd6"

-- src/cubehash/mod.rs, src/bmw/mod.rs, tests
#guard run 64 .debug "cubehash::sum" [str "00000000000000000000000000000000"] = "f83989901eb3c366e7d7469f8ea8ef0694043cd42deb6252089ff38fb7892f3d"
#guard run 64 .debug "bmw::sum" [str "abc"] = "57d11fc94bdf98e6a0d0bf1d4ddda3f4205e873666a644b5bb585e171ad87d34"
#guard run 64 .debug "bmw::sum" [str "脇山珠美ちゃんかわいい！"] = "034c3defeb35b38e23136ad700885007c0c051cd51cc45170cbbdcd68419214a"

-- the chains, tests
#guard run 64 .debug "lyra2rev3::sum" [str "😀😁😂"] = "22cb37cae128d61e3060bf45189ba9b206755728596fc8b054c5712b68c12bcb"
#guard run 64 .debug "lyra2z::sum" [str "abc"] = "cf9d13829886efd875cb0d01e44a80288d478346dd721fac0e6e04fe5774879c"
#guard run 64 .debug "lyra2re::sum" [str "abc"] = "07d3fe93103f6ad4284ad389d4b0a80334c94f5ffd0a537dfc935b3625552317"
#guard run 64 .debug "lyra2rev2::sum" [str "abc"] = "80ec5344227c5d0bfd63038f00c3fe5aecddd1a1122043b0a90b5fd67b1e8f32"

-- the parser: precedence, associativity, comments, what is rejected
/-- A function with the given lines as its body. -/
def fn (lines : List String) : Option (List Fn) :=
  Parser.parse c!"m" [] (["// a comment {", "pub fn f(a: u32) -> u32 {"] ++ lines ++ ["}"])

#guard fn ["a + a * 2"] matches some [⟨"m::f", [("a", .int .u32)], .int .u32, [], .bin .add (.var "a") (.bin .mul (.var "a") (.lit 2)), true⟩]
#guard fn ["a * 2 + a"] matches some [⟨_, _, _, [], .bin .add (.bin .mul (.var "a") (.lit 2)) (.var "a"), true⟩]
#guard fn ["a - 1 - 0x1_f /* - 3", "- 4 */"] matches some [⟨_, _, _, [], .bin .sub (.bin .sub (.var "a") (.lit 1)) (.lit 31), true⟩]
#guard fn ["(a ^ 1 << 2 & 3 | 4)"] matches
  some [⟨_, _, _, [], .bin .or (.bin .xor (.var "a") (.bin .and (.bin .shl (.lit 1) (.lit 2)) (.lit 3))) (.lit 4), true⟩]
#guard fn ["-a as u64 + 1"] matches some [⟨_, _, _, [], .bin .add (.cast (.neg (.var "a")) .u64) (.lit 1), true⟩]
#guard fn ["a = a; // a = 3;", "a"] matches some [⟨_, _, _, [.assign (.var "a") (.var "a")], .var "a", true⟩]
#guard (fn ["a = a;"]).isNone
#guard (fn ["a; a"]).isNone
#guard (fn ["a }"]).isNone
#guard (fn ["return a"]).isNone
#guard (fn ["1z"]).isNone
#guard (fn ["a ? a"]).isNone
#guard (fn ["if a == a { a } else { a }"]).isNone

-- arithmetic of the interpreter: overflow checks, rounding of `/` and `%`, `as`
#guard (binOp 64 .debug .add (.u8 255) (.lit 1)).run matches some (.error .overflow)
#guard (binOp 64 .release .add (.u8 255) (.lit 1)).run matches some (.ok (.u8 0))
#guard (binOp 64 .debug .sub (.i64 0) (.lit 1)).run matches some (.ok (.i64 0xffffffffffffffff))
#guard (binOp 64 .debug .div (.i64 (-7)) (.lit 2)).run matches some (.ok (.i64 0xfffffffffffffffd))
#guard (binOp 64 .debug .rem (.i64 (-7)) (.lit 2)).run matches some (.ok (.i64 0xffffffffffffffff))
#guard (binOp 64 .debug .lt (.i64 (-1)) (.lit 0)).run matches some (.ok (.bool true))
#guard (binOp 64 .debug .lt (.u64 (-1)) (.lit 0)).run matches some (.ok (.bool false))
#guard (binOp 64 .debug .add (.u64 1) (.usize 1)).run matches some (.error .stuck)
#guard (binOp 64 .debug .shl (.u32 1) (.lit 32)).run matches some (.error .overflow)
#guard (binOp 64 .release .shl (.u32 1) (.lit 33)).run matches some (.ok (.u32 2))
-- two literals: the result is exact where the type that the compiler gives them does not matter
#guard (binOp 64 .debug .mul (.lit 31) (.lit 0x05555555)).run matches some (.ok (.lit 0xa555554b))
#guard (applyMethod "wrapping_add" (.u32 1) [.lit 0xa555554b]).run matches some (.ok (.u32 0xa555554c))
#guard (applyMethod "wrapping_add" (.u32 1) [.lit 0x1a555554b]).run matches some (.error .stuck)
#guard (binOp 64 .debug .sub (.lit 300) (.lit 299)).run matches some (.error .stuck)
#guard (binOp 64 .debug .sub (.lit 1) (.lit 2)).run matches some (.error .stuck)
#guard (binOp 64 .debug .mul (.lit 300) (.lit 0)).run matches some (.error .stuck)
#guard (Val.num (.lit 300)).run matches some (.error .stuck)
#guard (negate .debug (.i64 0x8000000000000000)).run matches some (.error .overflow)
#guard castTo 64 .u8 (-1) matches .u8 255

-- the same functions on a target with 32-bit `usize`
#guard run 32 .debug "lyra2::sum" [str "abc"] = "8f63758bd178f014ea3fd4df09ff0a61646dc574a0b6bcf2890ec529a6a7360c"
#guard run 32 .debug "lyra2mod::sum" [str "abc"] = "0c36444f2885b72f3528af3b1f59174f8fd5c20b712988306962784c5f8ac462"
#guard run 32 .debug "lyra2rev2::sum" [str "abc"] = "80ec5344227c5d0bfd63038f00c3fe5aecddd1a1122043b0a90b5fd67b1e8f32"
#guard run 32 .debug "lyra2::lyra2" [.u64 0x8000000000000004, str "abc", str "abc", .u64 1, .u64 4, .u64 4] = "00000000"
#guard run 64 .debug "lyra2::lyra2" [.u64 0x8000000000000004, str "abc", str "abc", .u64 1, .u64 4, .u64 4] = "panics"
#guard (binOp 32 .debug .add (.usize 0xffffffff) (.lit 1)).run matches some (.error .overflow)
#guard (binOp 32 .release .add (.usize 0xffffffff) (.lit 1)).run matches some (.ok (.usize 0))
#guard (binOp 64 .debug .add (.usize 0xffffffff) (.lit 1)).run matches some (.ok (.usize 0x100000000))
#guard (binOp 32 .debug .add (.u64 0xffffffff) (.lit 1)).run matches some (.ok (.u64 0x100000000))
#guard castTo 32 .usize (-1) matches .usize 0xffffffff
#guard castTo 64 .usize (-1) matches .usize 0xffffffffffffffff

end SourceTests
