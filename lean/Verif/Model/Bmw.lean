import Verif.Model.Utils

/-! Model of `/repo/src/bmw/mod.rs`. Every assignment `q[i] = ...` and `h[i] = ...` of `compress` is its own definition,
`compress` runs them in source order. -/

namespace Model.Bmw
open Rust Model.Utils

/-- `INITVAL`, src/bmw/mod.rs:3-20. -/
def INITVAL : Vector U32 16 := #v[
  0x40414243,
  0x44454647,
  0x48494A4B,
  0x4C4D4E4F,
  0x50515253,
  0x54555657,
  0x58595A5B,
  0x5C5D5E5F,
  0x60616263,
  0x64656667,
  0x68696A6B,
  0x6C6D6E6F,
  0x70717273,
  0x74757677,
  0x78797A7B,
  0x7C7D7E7F]

/-- `FINAL`, src/bmw/mod.rs:22-39. -/
def FINAL : Vector U32 16 := #v[
  0xaaaaaaa0,
  0xaaaaaaa1,
  0xaaaaaaa2,
  0xaaaaaaa3,
  0xaaaaaaa4,
  0xaaaaaaa5,
  0xaaaaaaa6,
  0xaaaaaaa7,
  0xaaaaaaa8,
  0xaaaaaaa9,
  0xaaaaaaaa,
  0xaaaaaaab,
  0xaaaaaaac,
  0xaaaaaaad,
  0xaaaaaaae,
  0xaaaaaaaf]

/-- `circular_left`, src/bmw/mod.rs:41-43. Only called with constants `1 ≤ n ≤ 29`, for which neither shift overflows. -/
def circular_left (x : U32) (n : Nat) : U32 := (x <<< n) ||| (x >>> (32 - n))

/-- `struct Bmw`, src/bmw/mod.rs:45-50. -/
structure Bmw where
  m : Vector U32 16
  h : Vector U32 16
  h2 : Vector U32 16
  q : Vector U32 32

/-- `new`, src/bmw/mod.rs:52-76. -/
def new : Bmw :=
  let b : Bmw := { m := Vector.replicate 16 0, h := Vector.replicate 16 0, h2 := Vector.replicate 16 0, q := Vector.replicate 32 0 }
  let b := { b with h := b.h.set 0 INITVAL[0] }
  let b := { b with h := b.h.set 1 INITVAL[1] }
  let b := { b with h := b.h.set 2 INITVAL[2] }
  let b := { b with h := b.h.set 3 INITVAL[3] }
  let b := { b with h := b.h.set 4 INITVAL[4] }
  let b := { b with h := b.h.set 5 INITVAL[5] }
  let b := { b with h := b.h.set 6 INITVAL[6] }
  let b := { b with h := b.h.set 7 INITVAL[7] }
  let b := { b with h := b.h.set 8 INITVAL[8] }
  let b := { b with h := b.h.set 9 INITVAL[9] }
  let b := { b with h := b.h.set 10 INITVAL[10] }
  let b := { b with h := b.h.set 11 INITVAL[11] }
  let b := { b with h := b.h.set 12 INITVAL[12] }
  let b := { b with h := b.h.set 13 INITVAL[13] }
  let b := { b with h := b.h.set 14 INITVAL[14] }
  let b := { b with h := b.h.set 15 INITVAL[15] }
  b

/-- `q[0] = ...`, src/bmw/mod.rs:81-109. -/
def q0 (m h : Vector U32 16) (q : Vector U32 32) : Vector U32 32 :=
  q.set 0 (((((m[5] ^^^ h[5]) - (m[7] ^^^ h[7]) + (m[10] ^^^ h[10]) + (m[13] ^^^ h[13]) + (m[14] ^^^ h[14]))
    >>> 1) ^^^ (((m[5] ^^^ h[5]) - (m[7] ^^^ h[7]) + (m[10] ^^^ h[10]) + (m[13] ^^^ h[13]) + (m[14] ^^^ h[14]))
    <<< 3) ^^^ (circular_left ((m[5] ^^^ h[5]) - (m[7] ^^^ h[7]) + (m[10] ^^^ h[10]) + (m[13] ^^^ h[13]) +
    (m[14] ^^^ h[14])) 4) ^^^ (circular_left ((m[5] ^^^ h[5]) - (m[7] ^^^ h[7]) + (m[10] ^^^ h[10]) + (m[13]
    ^^^ h[13]) + (m[14] ^^^ h[14])) 19)) + h[1])

/-- `q[1] = ...`, src/bmw/mod.rs:110-138. -/
def q1 (m h : Vector U32 16) (q : Vector U32 32) : Vector U32 32 :=
  q.set 1 (((((m[6] ^^^ h[6]) - (m[8] ^^^ h[8]) + (m[11] ^^^ h[11]) + (m[14] ^^^ h[14]) - (m[15] ^^^ h[15]))
    >>> 1) ^^^ (((m[6] ^^^ h[6]) - (m[8] ^^^ h[8]) + (m[11] ^^^ h[11]) + (m[14] ^^^ h[14]) - (m[15] ^^^ h[15]))
    <<< 2) ^^^ (circular_left ((m[6] ^^^ h[6]) - (m[8] ^^^ h[8]) + (m[11] ^^^ h[11]) + (m[14] ^^^ h[14]) -
    (m[15] ^^^ h[15])) 8) ^^^ (circular_left ((m[6] ^^^ h[6]) - (m[8] ^^^ h[8]) + (m[11] ^^^ h[11]) + (m[14]
    ^^^ h[14]) - (m[15] ^^^ h[15])) 23)) + h[2])

/-- `q[2] = ...`, src/bmw/mod.rs:139-167. -/
def q2 (m h : Vector U32 16) (q : Vector U32 32) : Vector U32 32 :=
  q.set 2 (((((m[0] ^^^ h[0]) + (m[7] ^^^ h[7]) + (m[9] ^^^ h[9]) - (m[12] ^^^ h[12]) + (m[15] ^^^ h[15])) >>>
    2) ^^^ (((m[0] ^^^ h[0]) + (m[7] ^^^ h[7]) + (m[9] ^^^ h[9]) - (m[12] ^^^ h[12]) + (m[15] ^^^ h[15])) <<<
    1) ^^^ (circular_left ((m[0] ^^^ h[0]) + (m[7] ^^^ h[7]) + (m[9] ^^^ h[9]) - (m[12] ^^^ h[12]) + (m[15] ^^^
    h[15])) 12) ^^^ (circular_left ((m[0] ^^^ h[0]) + (m[7] ^^^ h[7]) + (m[9] ^^^ h[9]) - (m[12] ^^^ h[12]) +
    (m[15] ^^^ h[15])) 25)) + h[3])

/-- `q[3] = ...`, src/bmw/mod.rs:168-196. -/
def q3 (m h : Vector U32 16) (q : Vector U32 32) : Vector U32 32 :=
  q.set 3 (((((m[0] ^^^ h[0]) - (m[1] ^^^ h[1]) + (m[8] ^^^ h[8]) - (m[10] ^^^ h[10]) + (m[13] ^^^ h[13])) >>>
    2) ^^^ (((m[0] ^^^ h[0]) - (m[1] ^^^ h[1]) + (m[8] ^^^ h[8]) - (m[10] ^^^ h[10]) + (m[13] ^^^ h[13])) <<<
    2) ^^^ (circular_left ((m[0] ^^^ h[0]) - (m[1] ^^^ h[1]) + (m[8] ^^^ h[8]) - (m[10] ^^^ h[10]) + (m[13] ^^^
    h[13])) 15) ^^^ (circular_left ((m[0] ^^^ h[0]) - (m[1] ^^^ h[1]) + (m[8] ^^^ h[8]) - (m[10] ^^^ h[10]) +
    (m[13] ^^^ h[13])) 29)) + h[4])

/-- `q[4] = ...`, src/bmw/mod.rs:197-208. -/
def q4 (m h : Vector U32 16) (q : Vector U32 32) : Vector U32 32 :=
  q.set 4 (((((m[1] ^^^ h[1]) + (m[2] ^^^ h[2]) + (m[9] ^^^ h[9]) - (m[11] ^^^ h[11]) - (m[14] ^^^ h[14])) >>>
    1) ^^^ ((m[1] ^^^ h[1]) + (m[2] ^^^ h[2]) + (m[9] ^^^ h[9]) - (m[11] ^^^ h[11]) - (m[14] ^^^ h[14]))) +
    h[5])

/-- `q[5] = ...`, src/bmw/mod.rs:209-237. -/
def q5 (m h : Vector U32 16) (q : Vector U32 32) : Vector U32 32 :=
  q.set 5 (((((m[3] ^^^ h[3]) - (m[2] ^^^ h[2]) + (m[10] ^^^ h[10]) - (m[12] ^^^ h[12]) + (m[15] ^^^ h[15]))
    >>> 1) ^^^ (((m[3] ^^^ h[3]) - (m[2] ^^^ h[2]) + (m[10] ^^^ h[10]) - (m[12] ^^^ h[12]) + (m[15] ^^^ h[15]))
    <<< 3) ^^^ (circular_left ((m[3] ^^^ h[3]) - (m[2] ^^^ h[2]) + (m[10] ^^^ h[10]) - (m[12] ^^^ h[12]) +
    (m[15] ^^^ h[15])) 4) ^^^ (circular_left ((m[3] ^^^ h[3]) - (m[2] ^^^ h[2]) + (m[10] ^^^ h[10]) - (m[12]
    ^^^ h[12]) + (m[15] ^^^ h[15])) 19)) + h[6])

/-- `q[6] = ...`, src/bmw/mod.rs:238-266. -/
def q6 (m h : Vector U32 16) (q : Vector U32 32) : Vector U32 32 :=
  q.set 6 (((((m[4] ^^^ h[4]) - (m[0] ^^^ h[0]) - (m[3] ^^^ h[3]) - (m[11] ^^^ h[11]) + (m[13] ^^^ h[13])) >>>
    1) ^^^ (((m[4] ^^^ h[4]) - (m[0] ^^^ h[0]) - (m[3] ^^^ h[3]) - (m[11] ^^^ h[11]) + (m[13] ^^^ h[13])) <<<
    2) ^^^ (circular_left ((m[4] ^^^ h[4]) - (m[0] ^^^ h[0]) - (m[3] ^^^ h[3]) - (m[11] ^^^ h[11]) + (m[13] ^^^
    h[13])) 8) ^^^ (circular_left ((m[4] ^^^ h[4]) - (m[0] ^^^ h[0]) - (m[3] ^^^ h[3]) - (m[11] ^^^ h[11]) +
    (m[13] ^^^ h[13])) 23)) + h[7])

/-- `q[7] = ...`, src/bmw/mod.rs:267-295. -/
def q7 (m h : Vector U32 16) (q : Vector U32 32) : Vector U32 32 :=
  q.set 7 (((((m[1] ^^^ h[1]) - (m[4] ^^^ h[4]) - (m[5] ^^^ h[5]) - (m[12] ^^^ h[12]) - (m[14] ^^^ h[14])) >>>
    2) ^^^ (((m[1] ^^^ h[1]) - (m[4] ^^^ h[4]) - (m[5] ^^^ h[5]) - (m[12] ^^^ h[12]) - (m[14] ^^^ h[14])) <<<
    1) ^^^ (circular_left ((m[1] ^^^ h[1]) - (m[4] ^^^ h[4]) - (m[5] ^^^ h[5]) - (m[12] ^^^ h[12]) - (m[14] ^^^
    h[14])) 12) ^^^ (circular_left ((m[1] ^^^ h[1]) - (m[4] ^^^ h[4]) - (m[5] ^^^ h[5]) - (m[12] ^^^ h[12]) -
    (m[14] ^^^ h[14])) 25)) + h[8])

/-- `q[8] = ...`, src/bmw/mod.rs:296-324. -/
def q8 (m h : Vector U32 16) (q : Vector U32 32) : Vector U32 32 :=
  q.set 8 (((((m[2] ^^^ h[2]) - (m[5] ^^^ h[5]) - (m[6] ^^^ h[6]) + (m[13] ^^^ h[13]) - (m[15] ^^^ h[15])) >>>
    2) ^^^ (((m[2] ^^^ h[2]) - (m[5] ^^^ h[5]) - (m[6] ^^^ h[6]) + (m[13] ^^^ h[13]) - (m[15] ^^^ h[15])) <<<
    2) ^^^ (circular_left ((m[2] ^^^ h[2]) - (m[5] ^^^ h[5]) - (m[6] ^^^ h[6]) + (m[13] ^^^ h[13]) - (m[15] ^^^
    h[15])) 15) ^^^ (circular_left ((m[2] ^^^ h[2]) - (m[5] ^^^ h[5]) - (m[6] ^^^ h[6]) + (m[13] ^^^ h[13]) -
    (m[15] ^^^ h[15])) 29)) + h[9])

/-- `q[9] = ...`, src/bmw/mod.rs:325-336. -/
def q9 (m h : Vector U32 16) (q : Vector U32 32) : Vector U32 32 :=
  q.set 9 (((((m[0] ^^^ h[0]) - (m[3] ^^^ h[3]) + (m[6] ^^^ h[6]) - (m[7] ^^^ h[7]) + (m[14] ^^^ h[14])) >>> 1)
    ^^^ ((m[0] ^^^ h[0]) - (m[3] ^^^ h[3]) + (m[6] ^^^ h[6]) - (m[7] ^^^ h[7]) + (m[14] ^^^ h[14]))) + h[10])

/-- `q[10] = ...`, src/bmw/mod.rs:337-365. -/
def q10 (m h : Vector U32 16) (q : Vector U32 32) : Vector U32 32 :=
  q.set 10 (((((m[8] ^^^ h[8]) - (m[1] ^^^ h[1]) - (m[4] ^^^ h[4]) - (m[7] ^^^ h[7]) + (m[15] ^^^ h[15])) >>>
    1) ^^^ (((m[8] ^^^ h[8]) - (m[1] ^^^ h[1]) - (m[4] ^^^ h[4]) - (m[7] ^^^ h[7]) + (m[15] ^^^ h[15])) <<< 3)
    ^^^ (circular_left ((m[8] ^^^ h[8]) - (m[1] ^^^ h[1]) - (m[4] ^^^ h[4]) - (m[7] ^^^ h[7]) + (m[15] ^^^
    h[15])) 4) ^^^ (circular_left ((m[8] ^^^ h[8]) - (m[1] ^^^ h[1]) - (m[4] ^^^ h[4]) - (m[7] ^^^ h[7]) +
    (m[15] ^^^ h[15])) 19)) + h[11])

/-- `q[11] = ...`, src/bmw/mod.rs:366-394. -/
def q11 (m h : Vector U32 16) (q : Vector U32 32) : Vector U32 32 :=
  q.set 11 (((((m[8] ^^^ h[8]) - (m[0] ^^^ h[0]) - (m[2] ^^^ h[2]) - (m[5] ^^^ h[5]) + (m[9] ^^^ h[9])) >>> 1)
    ^^^ (((m[8] ^^^ h[8]) - (m[0] ^^^ h[0]) - (m[2] ^^^ h[2]) - (m[5] ^^^ h[5]) + (m[9] ^^^ h[9])) <<< 2) ^^^
    (circular_left ((m[8] ^^^ h[8]) - (m[0] ^^^ h[0]) - (m[2] ^^^ h[2]) - (m[5] ^^^ h[5]) + (m[9] ^^^ h[9])) 8)
    ^^^ (circular_left ((m[8] ^^^ h[8]) - (m[0] ^^^ h[0]) - (m[2] ^^^ h[2]) - (m[5] ^^^ h[5]) + (m[9] ^^^
    h[9])) 23)) + h[12])

/-- `q[12] = ...`, src/bmw/mod.rs:395-423. -/
def q12 (m h : Vector U32 16) (q : Vector U32 32) : Vector U32 32 :=
  q.set 12 (((((m[1] ^^^ h[1]) + (m[3] ^^^ h[3]) - (m[6] ^^^ h[6]) - (m[9] ^^^ h[9]) + (m[10] ^^^ h[10])) >>>
    2) ^^^ (((m[1] ^^^ h[1]) + (m[3] ^^^ h[3]) - (m[6] ^^^ h[6]) - (m[9] ^^^ h[9]) + (m[10] ^^^ h[10])) <<< 1)
    ^^^ (circular_left ((m[1] ^^^ h[1]) + (m[3] ^^^ h[3]) - (m[6] ^^^ h[6]) - (m[9] ^^^ h[9]) + (m[10] ^^^
    h[10])) 12) ^^^ (circular_left ((m[1] ^^^ h[1]) + (m[3] ^^^ h[3]) - (m[6] ^^^ h[6]) - (m[9] ^^^ h[9]) +
    (m[10] ^^^ h[10])) 25)) + h[13])

/-- `q[13] = ...`, src/bmw/mod.rs:424-452. -/
def q13 (m h : Vector U32 16) (q : Vector U32 32) : Vector U32 32 :=
  q.set 13 (((((m[2] ^^^ h[2]) + (m[4] ^^^ h[4]) + (m[7] ^^^ h[7]) + (m[10] ^^^ h[10]) + (m[11] ^^^ h[11])) >>>
    2) ^^^ (((m[2] ^^^ h[2]) + (m[4] ^^^ h[4]) + (m[7] ^^^ h[7]) + (m[10] ^^^ h[10]) + (m[11] ^^^ h[11])) <<<
    2) ^^^ (circular_left ((m[2] ^^^ h[2]) + (m[4] ^^^ h[4]) + (m[7] ^^^ h[7]) + (m[10] ^^^ h[10]) + (m[11] ^^^
    h[11])) 15) ^^^ (circular_left ((m[2] ^^^ h[2]) + (m[4] ^^^ h[4]) + (m[7] ^^^ h[7]) + (m[10] ^^^ h[10]) +
    (m[11] ^^^ h[11])) 29)) + h[14])

/-- `q[14] = ...`, src/bmw/mod.rs:453-464. -/
def q14 (m h : Vector U32 16) (q : Vector U32 32) : Vector U32 32 :=
  q.set 14 (((((m[3] ^^^ h[3]) - (m[5] ^^^ h[5]) + (m[8] ^^^ h[8]) - (m[11] ^^^ h[11]) - (m[12] ^^^ h[12])) >>>
    1) ^^^ ((m[3] ^^^ h[3]) - (m[5] ^^^ h[5]) + (m[8] ^^^ h[8]) - (m[11] ^^^ h[11]) - (m[12] ^^^ h[12]))) +
    h[15])

/-- `q[15] = ...`, src/bmw/mod.rs:465-493. -/
def q15 (m h : Vector U32 16) (q : Vector U32 32) : Vector U32 32 :=
  q.set 15 (((((m[12] ^^^ h[12]) - (m[4] ^^^ h[4]) - (m[6] ^^^ h[6]) - (m[9] ^^^ h[9]) + (m[13] ^^^ h[13])) >>>
    1) ^^^ (((m[12] ^^^ h[12]) - (m[4] ^^^ h[4]) - (m[6] ^^^ h[6]) - (m[9] ^^^ h[9]) + (m[13] ^^^ h[13])) <<<
    3) ^^^ (circular_left ((m[12] ^^^ h[12]) - (m[4] ^^^ h[4]) - (m[6] ^^^ h[6]) - (m[9] ^^^ h[9]) + (m[13] ^^^
    h[13])) 4) ^^^ (circular_left ((m[12] ^^^ h[12]) - (m[4] ^^^ h[4]) - (m[6] ^^^ h[6]) - (m[9] ^^^ h[9]) +
    (m[13] ^^^ h[13])) 19)) + h[0])

/-- `q[16] = ...`, src/bmw/mod.rs:494-528. -/
def q16 (m h : Vector U32 16) (q : Vector U32 32) : Vector U32 32 :=
  q.set 16 (((q[0] >>> 1) ^^^ (q[0] <<< 2) ^^^ (circular_left q[0] 8) ^^^ (circular_left q[0] 23)) + ((q[1] >>>
    2) ^^^ (q[1] <<< 1) ^^^ (circular_left q[1] 12) ^^^ (circular_left q[1] 25)) + ((q[2] >>> 2) ^^^ (q[2] <<<
    2) ^^^ (circular_left q[2] 15) ^^^ (circular_left q[2] 29)) + ((q[3] >>> 1) ^^^ (q[3] <<< 3) ^^^
    (circular_left q[3] 4) ^^^ (circular_left q[3] 19)) + ((q[4] >>> 1) ^^^ (q[4] <<< 2) ^^^ (circular_left
    q[4] 8) ^^^ (circular_left q[4] 23)) + ((q[5] >>> 2) ^^^ (q[5] <<< 1) ^^^ (circular_left q[5] 12) ^^^
    (circular_left q[5] 25)) + ((q[6] >>> 2) ^^^ (q[6] <<< 2) ^^^ (circular_left q[6] 15) ^^^ (circular_left
    q[6] 29)) + ((q[7] >>> 1) ^^^ (q[7] <<< 3) ^^^ (circular_left q[7] 4) ^^^ (circular_left q[7] 19)) + ((q[8]
    >>> 1) ^^^ (q[8] <<< 2) ^^^ (circular_left q[8] 8) ^^^ (circular_left q[8] 23)) + ((q[9] >>> 2) ^^^ (q[9]
    <<< 1) ^^^ (circular_left q[9] 12) ^^^ (circular_left q[9] 25)) + ((q[10] >>> 2) ^^^ (q[10] <<< 2) ^^^
    (circular_left q[10] 15) ^^^ (circular_left q[10] 29)) + ((q[11] >>> 1) ^^^ (q[11] <<< 3) ^^^
    (circular_left q[11] 4) ^^^ (circular_left q[11] 19)) + ((q[12] >>> 1) ^^^ (q[12] <<< 2) ^^^ (circular_left
    q[12] 8) ^^^ (circular_left q[12] 23)) + ((q[13] >>> 2) ^^^ (q[13] <<< 1) ^^^ (circular_left q[13] 12) ^^^
    (circular_left q[13] 25)) + ((q[14] >>> 2) ^^^ (q[14] <<< 2) ^^^ (circular_left q[14] 15) ^^^
    (circular_left q[14] 29)) + ((q[15] >>> 1) ^^^ (q[15] <<< 3) ^^^ (circular_left q[15] 4) ^^^ (circular_left
    q[15] 19)) + (((circular_left m[0] 1) + (circular_left m[3] 4) - (circular_left m[10] 11) + (16 *
    0x05555555)) ^^^ h[7]))

/-- `q[17] = ...`, src/bmw/mod.rs:529-565. -/
def q17 (m h : Vector U32 16) (q : Vector U32 32) : Vector U32 32 :=
  q.set 17 (((q[1] >>> 1) ^^^ (q[1] <<< 2) ^^^ (circular_left q[1] 8) ^^^ (circular_left q[1] 23)) + ((q[2] >>>
    2) ^^^ (q[2] <<< 1) ^^^ (circular_left q[2] 12) ^^^ (circular_left q[2] 25)) + ((q[3] >>> 2) ^^^ (q[3] <<<
    2) ^^^ (circular_left q[3] 15) ^^^ (circular_left q[3] 29)) + ((q[4] >>> 1) ^^^ (q[4] <<< 3) ^^^
    (circular_left q[4] 4) ^^^ (circular_left q[4] 19)) + ((q[5] >>> 1) ^^^ (q[5] <<< 2) ^^^ (circular_left
    q[5] 8) ^^^ (circular_left q[5] 23)) + ((q[6] >>> 2) ^^^ (q[6] <<< 1) ^^^ (circular_left q[6] 12) ^^^
    (circular_left q[6] 25)) + ((q[7] >>> 2) ^^^ (q[7] <<< 2) ^^^ (circular_left q[7] 15) ^^^ (circular_left
    q[7] 29)) + ((q[8] >>> 1) ^^^ (q[8] <<< 3) ^^^ (circular_left q[8] 4) ^^^ (circular_left q[8] 19)) + ((q[9]
    >>> 1) ^^^ (q[9] <<< 2) ^^^ (circular_left q[9] 8) ^^^ (circular_left q[9] 23)) + ((q[10] >>> 2) ^^^ (q[10]
    <<< 1) ^^^ (circular_left q[10] 12) ^^^ (circular_left q[10] 25)) + ((q[11] >>> 2) ^^^ (q[11] <<< 2) ^^^
    (circular_left q[11] 15) ^^^ (circular_left q[11] 29)) + ((q[12] >>> 1) ^^^ (q[12] <<< 3) ^^^
    (circular_left q[12] 4) ^^^ (circular_left q[12] 19)) + ((q[13] >>> 1) ^^^ (q[13] <<< 2) ^^^ (circular_left
    q[13] 8) ^^^ (circular_left q[13] 23)) + ((q[14] >>> 2) ^^^ (q[14] <<< 1) ^^^ (circular_left q[14] 12) ^^^
    (circular_left q[14] 25)) + ((q[15] >>> 2) ^^^ (q[15] <<< 2) ^^^ (circular_left q[15] 15) ^^^
    (circular_left q[15] 29)) + ((q[16] >>> 1) ^^^ (q[16] <<< 3) ^^^ (circular_left q[16] 4) ^^^ (circular_left
    q[16] 19)) + (((circular_left m[1] 2) + (circular_left m[4] 5) - (circular_left m[11] 12) + (17 *
    0x05555555)) ^^^ h[8]))

/-- `q[18] = ...`, src/bmw/mod.rs:566-588. -/
def q18 (m h : Vector U32 16) (q : Vector U32 32) : Vector U32 32 :=
  q.set 18 (q[2] + (circular_left q[3] 3) + q[4] + (circular_left q[5] 7) + q[6] + (circular_left q[7] 13) +
    q[8] + (circular_left q[9] 16) + q[10] + (circular_left q[11] 19) + q[12] + (circular_left q[13] 23) +
    q[14] + (circular_left q[15] 27) + ((q[16] >>> 1) ^^^ q[16]) + ((q[17] >>> 2) ^^^ q[17]) + (((circular_left
    m[2] 3) + (circular_left m[5] 6) - (circular_left m[12] 13) + (18 * 0x05555555)) ^^^ h[9]))

/-- `q[19] = ...`, src/bmw/mod.rs:589-611. -/
def q19 (m h : Vector U32 16) (q : Vector U32 32) : Vector U32 32 :=
  q.set 19 (q[3] + (circular_left q[4] 3) + q[5] + (circular_left q[6] 7) + q[7] + (circular_left q[8] 13) +
    q[9] + (circular_left q[10] 16) + q[11] + (circular_left q[12] 19) + q[13] + (circular_left q[14] 23) +
    q[15] + (circular_left q[16] 27) + ((q[17] >>> 1) ^^^ q[17]) + ((q[18] >>> 2) ^^^ q[18]) + (((circular_left
    m[3] 4) + (circular_left m[6] 7) - (circular_left m[13] 14) + (19 * 0x05555555)) ^^^ h[10]))

/-- `q[20] = ...`, src/bmw/mod.rs:612-634. -/
def q20 (m h : Vector U32 16) (q : Vector U32 32) : Vector U32 32 :=
  q.set 20 (q[4] + (circular_left q[5] 3) + q[6] + (circular_left q[7] 7) + q[8] + (circular_left q[9] 13) +
    q[10] + (circular_left q[11] 16) + q[12] + (circular_left q[13] 19) + q[14] + (circular_left q[15] 23) +
    q[16] + (circular_left q[17] 27) + ((q[18] >>> 1) ^^^ q[18]) + ((q[19] >>> 2) ^^^ q[19]) + (((circular_left
    m[4] 5) + (circular_left m[7] 8) - (circular_left m[14] 15) + (20 * 0x05555555)) ^^^ h[11]))

/-- `q[21] = ...`, src/bmw/mod.rs:635-657. -/
def q21 (m h : Vector U32 16) (q : Vector U32 32) : Vector U32 32 :=
  q.set 21 (q[5] + (circular_left q[6] 3) + q[7] + (circular_left q[8] 7) + q[9] + (circular_left q[10] 13) +
    q[11] + (circular_left q[12] 16) + q[13] + (circular_left q[14] 19) + q[15] + (circular_left q[16] 23) +
    q[17] + (circular_left q[18] 27) + ((q[19] >>> 1) ^^^ q[19]) + ((q[20] >>> 2) ^^^ q[20]) + (((circular_left
    m[5] 6) + (circular_left m[8] 9) - (circular_left m[15] 16) + (21 * 0x05555555)) ^^^ h[12]))

/-- `q[22] = ...`, src/bmw/mod.rs:658-680. -/
def q22 (m h : Vector U32 16) (q : Vector U32 32) : Vector U32 32 :=
  q.set 22 (q[6] + (circular_left q[7] 3) + q[8] + (circular_left q[9] 7) + q[10] + (circular_left q[11] 13) +
    q[12] + (circular_left q[13] 16) + q[14] + (circular_left q[15] 19) + q[16] + (circular_left q[17] 23) +
    q[18] + (circular_left q[19] 27) + ((q[20] >>> 1) ^^^ q[20]) + ((q[21] >>> 2) ^^^ q[21]) + (((circular_left
    m[6] 7) + (circular_left m[9] 10) - (circular_left m[0] 1) + (22 * 0x05555555)) ^^^ h[13]))

/-- `q[23] = ...`, src/bmw/mod.rs:681-703. -/
def q23 (m h : Vector U32 16) (q : Vector U32 32) : Vector U32 32 :=
  q.set 23 (q[7] + (circular_left q[8] 3) + q[9] + (circular_left q[10] 7) + q[11] + (circular_left q[12] 13) +
    q[13] + (circular_left q[14] 16) + q[15] + (circular_left q[16] 19) + q[17] + (circular_left q[18] 23) +
    q[19] + (circular_left q[20] 27) + ((q[21] >>> 1) ^^^ q[21]) + ((q[22] >>> 2) ^^^ q[22]) + (((circular_left
    m[7] 8) + (circular_left m[10] 11) - (circular_left m[1] 2) + (23 * 0x05555555)) ^^^ h[14]))

/-- `q[24] = ...`, src/bmw/mod.rs:704-726. -/
def q24 (m h : Vector U32 16) (q : Vector U32 32) : Vector U32 32 :=
  q.set 24 (q[8] + (circular_left q[9] 3) + q[10] + (circular_left q[11] 7) + q[12] + (circular_left q[13] 13)
    + q[14] + (circular_left q[15] 16) + q[16] + (circular_left q[17] 19) + q[18] + (circular_left q[19] 23) +
    q[20] + (circular_left q[21] 27) + ((q[22] >>> 1) ^^^ q[22]) + ((q[23] >>> 2) ^^^ q[23]) + (((circular_left
    m[8] 9) + (circular_left m[11] 12) - (circular_left m[2] 3) + (24 * 0x05555555)) ^^^ h[15]))

/-- `q[25] = ...`, src/bmw/mod.rs:727-749. -/
def q25 (m h : Vector U32 16) (q : Vector U32 32) : Vector U32 32 :=
  q.set 25 (q[9] + (circular_left q[10] 3) + q[11] + (circular_left q[12] 7) + q[13] + (circular_left q[14] 13)
    + q[15] + (circular_left q[16] 16) + q[17] + (circular_left q[18] 19) + q[19] + (circular_left q[20] 23) +
    q[21] + (circular_left q[22] 27) + ((q[23] >>> 1) ^^^ q[23]) + ((q[24] >>> 2) ^^^ q[24]) + (((circular_left
    m[9] 10) + (circular_left m[12] 13) - (circular_left m[3] 4) + (25 * 0x05555555)) ^^^ h[0]))

/-- `q[26] = ...`, src/bmw/mod.rs:750-772. -/
def q26 (m h : Vector U32 16) (q : Vector U32 32) : Vector U32 32 :=
  q.set 26 (q[10] + (circular_left q[11] 3) + q[12] + (circular_left q[13] 7) + q[14] + (circular_left q[15]
    13) + q[16] + (circular_left q[17] 16) + q[18] + (circular_left q[19] 19) + q[20] + (circular_left q[21]
    23) + q[22] + (circular_left q[23] 27) + ((q[24] >>> 1) ^^^ q[24]) + ((q[25] >>> 2) ^^^ q[25]) +
    (((circular_left m[10] 11) + (circular_left m[13] 14) - (circular_left m[4] 5) + (26 * 0x05555555)) ^^^
    h[1]))

/-- `q[27] = ...`, src/bmw/mod.rs:773-795. -/
def q27 (m h : Vector U32 16) (q : Vector U32 32) : Vector U32 32 :=
  q.set 27 (q[11] + (circular_left q[12] 3) + q[13] + (circular_left q[14] 7) + q[15] + (circular_left q[16]
    13) + q[17] + (circular_left q[18] 16) + q[19] + (circular_left q[20] 19) + q[21] + (circular_left q[22]
    23) + q[23] + (circular_left q[24] 27) + ((q[25] >>> 1) ^^^ q[25]) + ((q[26] >>> 2) ^^^ q[26]) +
    (((circular_left m[11] 12) + (circular_left m[14] 15) - (circular_left m[5] 6) + (27 * 0x05555555)) ^^^
    h[2]))

/-- `q[28] = ...`, src/bmw/mod.rs:796-818. -/
def q28 (m h : Vector U32 16) (q : Vector U32 32) : Vector U32 32 :=
  q.set 28 (q[12] + (circular_left q[13] 3) + q[14] + (circular_left q[15] 7) + q[16] + (circular_left q[17]
    13) + q[18] + (circular_left q[19] 16) + q[20] + (circular_left q[21] 19) + q[22] + (circular_left q[23]
    23) + q[24] + (circular_left q[25] 27) + ((q[26] >>> 1) ^^^ q[26]) + ((q[27] >>> 2) ^^^ q[27]) +
    (((circular_left m[12] 13) + (circular_left m[15] 16) - (circular_left m[6] 7) + (28 * 0x05555555)) ^^^
    h[3]))

/-- `q[29] = ...`, src/bmw/mod.rs:819-841. -/
def q29 (m h : Vector U32 16) (q : Vector U32 32) : Vector U32 32 :=
  q.set 29 (q[13] + (circular_left q[14] 3) + q[15] + (circular_left q[16] 7) + q[17] + (circular_left q[18]
    13) + q[19] + (circular_left q[20] 16) + q[21] + (circular_left q[22] 19) + q[23] + (circular_left q[24]
    23) + q[25] + (circular_left q[26] 27) + ((q[27] >>> 1) ^^^ q[27]) + ((q[28] >>> 2) ^^^ q[28]) +
    (((circular_left m[13] 14) + (circular_left m[0] 1) - (circular_left m[7] 8) + (29 * 0x05555555)) ^^^
    h[4]))

/-- `q[30] = ...`, src/bmw/mod.rs:842-864. -/
def q30 (m h : Vector U32 16) (q : Vector U32 32) : Vector U32 32 :=
  q.set 30 (q[14] + (circular_left q[15] 3) + q[16] + (circular_left q[17] 7) + q[18] + (circular_left q[19]
    13) + q[20] + (circular_left q[21] 16) + q[22] + (circular_left q[23] 19) + q[24] + (circular_left q[25]
    23) + q[26] + (circular_left q[27] 27) + ((q[28] >>> 1) ^^^ q[28]) + ((q[29] >>> 2) ^^^ q[29]) +
    (((circular_left m[14] 15) + (circular_left m[1] 2) - (circular_left m[8] 9) + (30 * 0x05555555)) ^^^
    h[5]))

/-- `q[31] = ...`, src/bmw/mod.rs:865-887. -/
def q31 (m h : Vector U32 16) (q : Vector U32 32) : Vector U32 32 :=
  q.set 31 (q[15] + (circular_left q[16] 3) + q[17] + (circular_left q[18] 7) + q[19] + (circular_left q[20]
    13) + q[21] + (circular_left q[22] 16) + q[23] + (circular_left q[24] 19) + q[25] + (circular_left q[26]
    23) + q[27] + (circular_left q[28] 27) + ((q[29] >>> 1) ^^^ q[29]) + ((q[30] >>> 2) ^^^ q[30]) +
    (((circular_left m[15] 16) + (circular_left m[2] 3) - (circular_left m[9] 10) + (31 * 0x05555555)) ^^^
    h[6]))

/-- `xl`, src/bmw/mod.rs:888. -/
def xl_of (q : Vector U32 32) : U32 :=
  q[16] ^^^ q[17] ^^^ q[18] ^^^ q[19] ^^^ q[20] ^^^ q[21] ^^^ q[22] ^^^ q[23]

/-- `xh`, src/bmw/mod.rs:889. -/
def xh_of (xl : U32) (q : Vector U32 32) : U32 :=
  xl ^^^ q[24] ^^^ q[25] ^^^ q[26] ^^^ q[27] ^^^ q[28] ^^^ q[29] ^^^ q[30] ^^^ q[31]

/-- `h[0] = ...`, src/bmw/mod.rs:890. -/
def h0 (m : Vector U32 16) (q : Vector U32 32) (xl xh : U32) (h : Vector U32 16) : Vector U32 16 :=
  h.set 0 (((xh <<< 5) ^^^ (q[16] >>> 5) ^^^ m[0]) + (xl ^^^ q[24] ^^^ q[0]))

/-- `h[1] = ...`, src/bmw/mod.rs:891. -/
def h1 (m : Vector U32 16) (q : Vector U32 32) (xl xh : U32) (h : Vector U32 16) : Vector U32 16 :=
  h.set 1 (((xh >>> 7) ^^^ (q[17] <<< 8) ^^^ m[1]) + (xl ^^^ q[25] ^^^ q[1]))

/-- `h[2] = ...`, src/bmw/mod.rs:892. -/
def h2 (m : Vector U32 16) (q : Vector U32 32) (xl xh : U32) (h : Vector U32 16) : Vector U32 16 :=
  h.set 2 (((xh >>> 5) ^^^ (q[18] <<< 5) ^^^ m[2]) + (xl ^^^ q[26] ^^^ q[2]))

/-- `h[3] = ...`, src/bmw/mod.rs:893. -/
def h3 (m : Vector U32 16) (q : Vector U32 32) (xl xh : U32) (h : Vector U32 16) : Vector U32 16 :=
  h.set 3 (((xh >>> 1) ^^^ (q[19] <<< 5) ^^^ m[3]) + (xl ^^^ q[27] ^^^ q[3]))

/-- `h[4] = ...`, src/bmw/mod.rs:894. -/
def h4 (m : Vector U32 16) (q : Vector U32 32) (xl xh : U32) (h : Vector U32 16) : Vector U32 16 :=
  h.set 4 (((xh >>> 3) ^^^ q[20] ^^^ m[4]) + (xl ^^^ q[28] ^^^ q[4]))

/-- `h[5] = ...`, src/bmw/mod.rs:895. -/
def h5 (m : Vector U32 16) (q : Vector U32 32) (xl xh : U32) (h : Vector U32 16) : Vector U32 16 :=
  h.set 5 (((xh <<< 6) ^^^ (q[21] >>> 6) ^^^ m[5]) + (xl ^^^ q[29] ^^^ q[5]))

/-- `h[6] = ...`, src/bmw/mod.rs:896. -/
def h6 (m : Vector U32 16) (q : Vector U32 32) (xl xh : U32) (h : Vector U32 16) : Vector U32 16 :=
  h.set 6 (((xh >>> 4) ^^^ (q[22] <<< 6) ^^^ m[6]) + (xl ^^^ q[30] ^^^ q[6]))

/-- `h[7] = ...`, src/bmw/mod.rs:897. -/
def h7 (m : Vector U32 16) (q : Vector U32 32) (xl xh : U32) (h : Vector U32 16) : Vector U32 16 :=
  h.set 7 (((xh >>> 11) ^^^ (q[23] <<< 2) ^^^ m[7]) + (xl ^^^ q[31] ^^^ q[7]))

/-- `h[8] = ...`, src/bmw/mod.rs:898-900. -/
def h8 (m : Vector U32 16) (q : Vector U32 32) (xl xh : U32) (h : Vector U32 16) : Vector U32 16 :=
  h.set 8 ((circular_left h[4] 9) + (xh ^^^ q[24] ^^^ m[8]) + ((xl <<< 8) ^^^ q[23] ^^^ q[8]))

/-- `h[9] = ...`, src/bmw/mod.rs:901-903. -/
def h9 (m : Vector U32 16) (q : Vector U32 32) (xl xh : U32) (h : Vector U32 16) : Vector U32 16 :=
  h.set 9 ((circular_left h[5] 10) + (xh ^^^ q[25] ^^^ m[9]) + ((xl >>> 6) ^^^ q[16] ^^^ q[9]))

/-- `h[10] = ...`, src/bmw/mod.rs:904-906. -/
def h10 (m : Vector U32 16) (q : Vector U32 32) (xl xh : U32) (h : Vector U32 16) : Vector U32 16 :=
  h.set 10 ((circular_left h[6] 11) + (xh ^^^ q[26] ^^^ m[10]) + ((xl <<< 6) ^^^ q[17] ^^^ q[10]))

/-- `h[11] = ...`, src/bmw/mod.rs:907-909. -/
def h11 (m : Vector U32 16) (q : Vector U32 32) (xl xh : U32) (h : Vector U32 16) : Vector U32 16 :=
  h.set 11 ((circular_left h[7] 12) + (xh ^^^ q[27] ^^^ m[11]) + ((xl <<< 4) ^^^ q[18] ^^^ q[11]))

/-- `h[12] = ...`, src/bmw/mod.rs:910-912. -/
def h12 (m : Vector U32 16) (q : Vector U32 32) (xl xh : U32) (h : Vector U32 16) : Vector U32 16 :=
  h.set 12 ((circular_left h[0] 13) + (xh ^^^ q[28] ^^^ m[12]) + ((xl >>> 3) ^^^ q[19] ^^^ q[12]))

/-- `h[13] = ...`, src/bmw/mod.rs:913-915. -/
def h13 (m : Vector U32 16) (q : Vector U32 32) (xl xh : U32) (h : Vector U32 16) : Vector U32 16 :=
  h.set 13 ((circular_left h[1] 14) + (xh ^^^ q[29] ^^^ m[13]) + ((xl >>> 4) ^^^ q[20] ^^^ q[13]))

/-- `h[14] = ...`, src/bmw/mod.rs:916-918. -/
def h14 (m : Vector U32 16) (q : Vector U32 32) (xl xh : U32) (h : Vector U32 16) : Vector U32 16 :=
  h.set 14 ((circular_left h[2] 15) + (xh ^^^ q[30] ^^^ m[14]) + ((xl >>> 7) ^^^ q[21] ^^^ q[14]))

/-- `h[15] = ...`, src/bmw/mod.rs:919-921. -/
def h15 (m : Vector U32 16) (q : Vector U32 32) (xl xh : U32) (h : Vector U32 16) : Vector U32 16 :=
  h.set 15 ((circular_left h[3] 16) + (xh ^^^ q[31] ^^^ m[15]) + ((xl >>> 2) ^^^ q[22] ^^^ q[15]))

/-- The extended pipe `q`, src/bmw/mod.rs:81-887. -/
def pipe (m h : Vector U32 16) (q : Vector U32 32) : Vector U32 32 :=
  let q := q0 m h q
  let q := q1 m h q
  let q := q2 m h q
  let q := q3 m h q
  let q := q4 m h q
  let q := q5 m h q
  let q := q6 m h q
  let q := q7 m h q
  let q := q8 m h q
  let q := q9 m h q
  let q := q10 m h q
  let q := q11 m h q
  let q := q12 m h q
  let q := q13 m h q
  let q := q14 m h q
  let q := q15 m h q
  let q := q16 m h q
  let q := q17 m h q
  let q := q18 m h q
  let q := q19 m h q
  let q := q20 m h q
  let q := q21 m h q
  let q := q22 m h q
  let q := q23 m h q
  let q := q24 m h q
  let q := q25 m h q
  let q := q26 m h q
  let q := q27 m h q
  let q := q28 m h q
  let q := q29 m h q
  let q := q30 m h q
  let q := q31 m h q
  q

/-- The new chaining value, src/bmw/mod.rs:888-921. -/
def fold (m : Vector U32 16) (q : Vector U32 32) (h : Vector U32 16) : Vector U32 16 :=
  let xl := xl_of q
  let xh := xh_of xl q
  let h := h0 m q xl xh h
  let h := h1 m q xl xh h
  let h := h2 m q xl xh h
  let h := h3 m q xl xh h
  let h := h4 m q xl xh h
  let h := h5 m q xl xh h
  let h := h6 m q xl xh h
  let h := h7 m q xl xh h
  let h := h8 m q xl xh h
  let h := h9 m q xl xh h
  let h := h10 m q xl xh h
  let h := h11 m q xl xh h
  let h := h12 m q xl xh h
  let h := h13 m q xl xh h
  let h := h14 m q xl xh h
  let h := h15 m q xl xh h
  h

/-- `compress`, src/bmw/mod.rs:78-925 (lines 922-923 copy all of `h` and `q` back). -/
def compress (b : Bmw) (m : Vector U32 16) : Bmw :=
  let h := b.h
  let q := b.q
  let q := pipe m h q
  let h := fold m q h
  { b with h := h, q := q }

/-- `buf[i] = x` for `buf: Vec<u8>`. -/
def bset (buf : List U8) (i : Nat) (x : U8) : Res (List U8) :=
  if i < buf.length then pure (buf.set i x) else throw .bounds

/-- src/bmw/mod.rs:931-948: the 64-byte buffer with the input, the padding byte and the bit length. -/
def padBuf (input : List U8) : Res (List U8) := do
  let buf ← forLoop 0 64 (fun i (buf : List U8) =>
    if i < input.length then do
      let x ← sget input i
      pure (buf ++ [x])
    else pure (buf ++ [0])) []
  let buf ← bset buf input.length 0x80
  -- `(input.len() as u64) << 3`: a `<<` never overflows by losing bits
  let bit_len := toLeBytes64 (BitVec.ofNat 64 input.length <<< 3)
  let buf ← bset buf 56 (← sget bit_len 0)
  let buf ← bset buf 57 (← sget bit_len 1)
  let buf ← bset buf 58 (← sget bit_len 2)
  let buf ← bset buf 59 (← sget bit_len 3)
  let buf ← bset buf 60 (← sget bit_len 4)
  let buf ← bset buf 61 (← sget bit_len 5)
  let buf ← bset buf 62 (← sget bit_len 6)
  let buf ← bset buf 63 (← sget bit_len 7)
  pure buf

/-- src/bmw/mod.rs:949-954: the message words, written into `b.m`. -/
def loadWords (buf : List U8) (m : Vector U32 16) : Res (Vector U32 16) :=
  (List.finRange 16).foldlM (fun (m : Vector U32 16) (i : Fin 16) => do
    let start := 4 * i.val
    let stop := start + 4
    let x ← read_u32_le (← slice buf start stop)
    pure (m.set i x)) m

/-- `sum`, src/bmw/mod.rs:929-972. -/
def sum (input : List U8) : Res (List U8) := do
  let b := new
  let buf ← padBuf input
  let b := { b with m := ← loadWords buf b.m }
  let m := b.m
  let b := compress b m
  let h := b.h
  let b := { b with h2 := h }
  let b := { b with h := FINAL }
  let h2 := b.h2
  let b := compress b h2
  let out : List U8 := []
  let out := out ++ toLeBytes32 b.h[8]
  let out := out ++ toLeBytes32 b.h[9]
  let out := out ++ toLeBytes32 b.h[10]
  let out := out ++ toLeBytes32 b.h[11]
  let out := out ++ toLeBytes32 b.h[12]
  let out := out ++ toLeBytes32 b.h[13]
  let out := out ++ toLeBytes32 b.h[14]
  let out := out ++ toLeBytes32 b.h[15]
  pure out

end Model.Bmw
