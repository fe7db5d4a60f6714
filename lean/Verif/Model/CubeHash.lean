import Verif.Model.Utils

/-! Model of `/repo/src/cubehash/mod.rs`. The straight-line bodies are transcribed statement by statement; an
assignment `c.xi = ...` becomes a shadowing `let xi := ...`, so that the order of the statements is kept. -/

namespace Model.CubeHash
open Rust Model.Utils

/-- `IV`, src/cubehash/mod.rs:3-36. -/
def IV : Vector U32 32 := #v[
  0xEA2BD4B4,
  0xCCD6F29F,
  0x63117E71,
  0x35481EAE,
  0x22512D5B,
  0xE5D94E63,
  0x7E624131,
  0xF4CC12BE,
  0xC2D0B696,
  0x42AF2070,
  0xD0720C35,
  0x3361DA8C,
  0x28CCECA4,
  0x8EF8AD83,
  0x4680AC00,
  0x40E5FBAB,
  0xD89041C3,
  0x6107FBD5,
  0x6C859D41,
  0xF0B26679,
  0x09392549,
  0x5FA25603,
  0x65C892FD,
  0x93CB6285,
  0x2AF2B5AE,
  0x9E4B4E60,
  0x774ABFDD,
  0x85254725,
  0x15815AEB,
  0x4AB6AAD6,
  0x9CDAF8AF,
  0xD6032C0A]

/-- `struct CubeHash`, src/cubehash/mod.rs:38-71. -/
@[ext] structure CubeHash where
  x0 : U32
  x1 : U32
  x2 : U32
  x3 : U32
  x4 : U32
  x5 : U32
  x6 : U32
  x7 : U32
  x8 : U32
  x9 : U32
  xa : U32
  xb : U32
  xc : U32
  xd : U32
  xe : U32
  xf : U32
  xg : U32
  xh : U32
  xi : U32
  xj : U32
  xk : U32
  xl : U32
  xm : U32
  xn : U32
  xo : U32
  xp : U32
  xq : U32
  xr : U32
  xs : U32
  xt : U32
  xu : U32
  xv : U32
deriving DecidableEq

/-- `new_cube_hash`, src/cubehash/mod.rs:73-108. -/
def new_cube_hash : CubeHash where
  x0 := IV[0]
  x1 := IV[1]
  x2 := IV[2]
  x3 := IV[3]
  x4 := IV[4]
  x5 := IV[5]
  x6 := IV[6]
  x7 := IV[7]
  x8 := IV[8]
  x9 := IV[9]
  xa := IV[10]
  xb := IV[11]
  xc := IV[12]
  xd := IV[13]
  xe := IV[14]
  xf := IV[15]
  xg := IV[16]
  xh := IV[17]
  xi := IV[18]
  xj := IV[19]
  xk := IV[20]
  xl := IV[21]
  xm := IV[22]
  xn := IV[23]
  xo := IV[24]
  xp := IV[25]
  xq := IV[26]
  xr := IV[27]
  xs := IV[28]
  xt := IV[29]
  xu := IV[30]
  xv := IV[31]

/-- `input_block`, src/cubehash/mod.rs:110-120. -/
def input_block (data : List U8) (c : CubeHash) : Res CubeHash := do
  let c := { c with x0 := c.x0 ^^^ (← read_u32_le (← slice data 0 4)) }
  let c := { c with x1 := c.x1 ^^^ (← read_u32_le (← slice data 4 8)) }
  let c := { c with x2 := c.x2 ^^^ (← read_u32_le (← slice data 8 12)) }
  let c := { c with x3 := c.x3 ^^^ (← read_u32_le (← slice data 12 16)) }
  let c := { c with x4 := c.x4 ^^^ (← read_u32_le (← slice data 16 20)) }
  let c := { c with x5 := c.x5 ^^^ (← read_u32_le (← slice data 20 24)) }
  let c := { c with x6 := c.x6 ^^^ (← read_u32_le (← slice data 24 28)) }
  let c := { c with x7 := c.x7 ^^^ (← read_u32_le (← slice data 28 32)) }
  pure c

/-- Half of the loop body of `sixteen_rounds`: src/cubehash/mod.rs:125-220. -/
def half1 (c : CubeHash) : CubeHash :=
  let x0 := c.x0
  let x1 := c.x1
  let x2 := c.x2
  let x3 := c.x3
  let x4 := c.x4
  let x5 := c.x5
  let x6 := c.x6
  let x7 := c.x7
  let x8 := c.x8
  let x9 := c.x9
  let xa := c.xa
  let xb := c.xb
  let xc := c.xc
  let xd := c.xd
  let xe := c.xe
  let xf := c.xf
  let xg := c.xg
  let xh := c.xh
  let xi := c.xi
  let xj := c.xj
  let xk := c.xk
  let xl := c.xl
  let xm := c.xm
  let xn := c.xn
  let xo := c.xo
  let xp := c.xp
  let xq := c.xq
  let xr := c.xr
  let xs := c.xs
  let xt := c.xt
  let xu := c.xu
  let xv := c.xv
  let xg := x0 + xg
  let x0 := (x0 <<< 7) ||| (x0 >>> (32 - 7))
  let xh := x1 + xh
  let x1 := (x1 <<< 7) ||| (x1 >>> (32 - 7))
  let xi := x2 + xi
  let x2 := (x2 <<< 7) ||| (x2 >>> (32 - 7))
  let xj := x3 + xj
  let x3 := (x3 <<< 7) ||| (x3 >>> (32 - 7))
  let xk := x4 + xk
  let x4 := (x4 <<< 7) ||| (x4 >>> (32 - 7))
  let xl := x5 + xl
  let x5 := (x5 <<< 7) ||| (x5 >>> (32 - 7))
  let xm := x6 + xm
  let x6 := (x6 <<< 7) ||| (x6 >>> (32 - 7))
  let xn := x7 + xn
  let x7 := (x7 <<< 7) ||| (x7 >>> (32 - 7))
  let xo := x8 + xo
  let x8 := (x8 <<< 7) ||| (x8 >>> (32 - 7))
  let xp := x9 + xp
  let x9 := (x9 <<< 7) ||| (x9 >>> (32 - 7))
  let xq := xa + xq
  let xa := (xa <<< 7) ||| (xa >>> (32 - 7))
  let xr := xb + xr
  let xb := (xb <<< 7) ||| (xb >>> (32 - 7))
  let xs := xc + xs
  let xc := (xc <<< 7) ||| (xc >>> (32 - 7))
  let xt := xd + xt
  let xd := (xd <<< 7) ||| (xd >>> (32 - 7))
  let xu := xe + xu
  let xe := (xe <<< 7) ||| (xe >>> (32 - 7))
  let xv := xf + xv
  let xf := (xf <<< 7) ||| (xf >>> (32 - 7))
  let x8 := x8 ^^^ xg
  let x9 := x9 ^^^ xh
  let xa := xa ^^^ xi
  let xb := xb ^^^ xj
  let xc := xc ^^^ xk
  let xd := xd ^^^ xl
  let xe := xe ^^^ xm
  let xf := xf ^^^ xn
  let x0 := x0 ^^^ xo
  let x1 := x1 ^^^ xp
  let x2 := x2 ^^^ xq
  let x3 := x3 ^^^ xr
  let x4 := x4 ^^^ xs
  let x5 := x5 ^^^ xt
  let x6 := x6 ^^^ xu
  let x7 := x7 ^^^ xv
  let xi := x8 + xi
  let x8 := (x8 <<< 11) ||| (x8 >>> (32 - 11))
  let xj := x9 + xj
  let x9 := (x9 <<< 11) ||| (x9 >>> (32 - 11))
  let xg := xa + xg
  let xa := (xa <<< 11) ||| (xa >>> (32 - 11))
  let xh := xb + xh
  let xb := (xb <<< 11) ||| (xb >>> (32 - 11))
  let xm := xc + xm
  let xc := (xc <<< 11) ||| (xc >>> (32 - 11))
  let xn := xd + xn
  let xd := (xd <<< 11) ||| (xd >>> (32 - 11))
  let xk := xe + xk
  let xe := (xe <<< 11) ||| (xe >>> (32 - 11))
  let xl := xf + xl
  let xf := (xf <<< 11) ||| (xf >>> (32 - 11))
  let xq := x0 + xq
  let x0 := (x0 <<< 11) ||| (x0 >>> (32 - 11))
  let xr := x1 + xr
  let x1 := (x1 <<< 11) ||| (x1 >>> (32 - 11))
  let xo := x2 + xo
  let x2 := (x2 <<< 11) ||| (x2 >>> (32 - 11))
  let xp := x3 + xp
  let x3 := (x3 <<< 11) ||| (x3 >>> (32 - 11))
  let xu := x4 + xu
  let x4 := (x4 <<< 11) ||| (x4 >>> (32 - 11))
  let xv := x5 + xv
  let x5 := (x5 <<< 11) ||| (x5 >>> (32 - 11))
  let xs := x6 + xs
  let x6 := (x6 <<< 11) ||| (x6 >>> (32 - 11))
  let xt := x7 + xt
  let x7 := (x7 <<< 11) ||| (x7 >>> (32 - 11))
  let xc := xc ^^^ xi
  let xd := xd ^^^ xj
  let xe := xe ^^^ xg
  let xf := xf ^^^ xh
  let x8 := x8 ^^^ xm
  let x9 := x9 ^^^ xn
  let xa := xa ^^^ xk
  let xb := xb ^^^ xl
  let x4 := x4 ^^^ xq
  let x5 := x5 ^^^ xr
  let x6 := x6 ^^^ xo
  let x7 := x7 ^^^ xp
  let x0 := x0 ^^^ xu
  let x1 := x1 ^^^ xv
  let x2 := x2 ^^^ xs
  let x3 := x3 ^^^ xt
  { x0, x1, x2, x3, x4, x5, x6, x7, x8, x9, xa, xb, xc, xd, xe, xf, xg, xh, xi, xj, xk, xl, xm, xn, xo, xp, xq, xr, xs, xt, xu, xv }

/-- Half of the loop body of `sixteen_rounds`: src/cubehash/mod.rs:222-317. -/
def half2 (c : CubeHash) : CubeHash :=
  let x0 := c.x0
  let x1 := c.x1
  let x2 := c.x2
  let x3 := c.x3
  let x4 := c.x4
  let x5 := c.x5
  let x6 := c.x6
  let x7 := c.x7
  let x8 := c.x8
  let x9 := c.x9
  let xa := c.xa
  let xb := c.xb
  let xc := c.xc
  let xd := c.xd
  let xe := c.xe
  let xf := c.xf
  let xg := c.xg
  let xh := c.xh
  let xi := c.xi
  let xj := c.xj
  let xk := c.xk
  let xl := c.xl
  let xm := c.xm
  let xn := c.xn
  let xo := c.xo
  let xp := c.xp
  let xq := c.xq
  let xr := c.xr
  let xs := c.xs
  let xt := c.xt
  let xu := c.xu
  let xv := c.xv
  let xj := xc + xj
  let xc := (xc <<< 7) ||| (xc >>> (32 - 7))
  let xi := xd + xi
  let xd := (xd <<< 7) ||| (xd >>> (32 - 7))
  let xh := xe + xh
  let xe := (xe <<< 7) ||| (xe >>> (32 - 7))
  let xg := xf + xg
  let xf := (xf <<< 7) ||| (xf >>> (32 - 7))
  let xn := x8 + xn
  let x8 := (x8 <<< 7) ||| (x8 >>> (32 - 7))
  let xm := x9 + xm
  let x9 := (x9 <<< 7) ||| (x9 >>> (32 - 7))
  let xl := xa + xl
  let xa := (xa <<< 7) ||| (xa >>> (32 - 7))
  let xk := xb + xk
  let xb := (xb <<< 7) ||| (xb >>> (32 - 7))
  let xr := x4 + xr
  let x4 := (x4 <<< 7) ||| (x4 >>> (32 - 7))
  let xq := x5 + xq
  let x5 := (x5 <<< 7) ||| (x5 >>> (32 - 7))
  let xp := x6 + xp
  let x6 := (x6 <<< 7) ||| (x6 >>> (32 - 7))
  let xo := x7 + xo
  let x7 := (x7 <<< 7) ||| (x7 >>> (32 - 7))
  let xv := x0 + xv
  let x0 := (x0 <<< 7) ||| (x0 >>> (32 - 7))
  let xu := x1 + xu
  let x1 := (x1 <<< 7) ||| (x1 >>> (32 - 7))
  let xt := x2 + xt
  let x2 := (x2 <<< 7) ||| (x2 >>> (32 - 7))
  let xs := x3 + xs
  let x3 := (x3 <<< 7) ||| (x3 >>> (32 - 7))
  let x4 := x4 ^^^ xj
  let x5 := x5 ^^^ xi
  let x6 := x6 ^^^ xh
  let x7 := x7 ^^^ xg
  let x0 := x0 ^^^ xn
  let x1 := x1 ^^^ xm
  let x2 := x2 ^^^ xl
  let x3 := x3 ^^^ xk
  let xc := xc ^^^ xr
  let xd := xd ^^^ xq
  let xe := xe ^^^ xp
  let xf := xf ^^^ xo
  let x8 := x8 ^^^ xv
  let x9 := x9 ^^^ xu
  let xa := xa ^^^ xt
  let xb := xb ^^^ xs
  let xh := x4 + xh
  let x4 := (x4 <<< 11) ||| (x4 >>> (32 - 11))
  let xg := x5 + xg
  let x5 := (x5 <<< 11) ||| (x5 >>> (32 - 11))
  let xj := x6 + xj
  let x6 := (x6 <<< 11) ||| (x6 >>> (32 - 11))
  let xi := x7 + xi
  let x7 := (x7 <<< 11) ||| (x7 >>> (32 - 11))
  let xl := x0 + xl
  let x0 := (x0 <<< 11) ||| (x0 >>> (32 - 11))
  let xk := x1 + xk
  let x1 := (x1 <<< 11) ||| (x1 >>> (32 - 11))
  let xn := x2 + xn
  let x2 := (x2 <<< 11) ||| (x2 >>> (32 - 11))
  let xm := x3 + xm
  let x3 := (x3 <<< 11) ||| (x3 >>> (32 - 11))
  let xp := xc + xp
  let xc := (xc <<< 11) ||| (xc >>> (32 - 11))
  let xo := xd + xo
  let xd := (xd <<< 11) ||| (xd >>> (32 - 11))
  let xr := xe + xr
  let xe := (xe <<< 11) ||| (xe >>> (32 - 11))
  let xq := xf + xq
  let xf := (xf <<< 11) ||| (xf >>> (32 - 11))
  let xt := x8 + xt
  let x8 := (x8 <<< 11) ||| (x8 >>> (32 - 11))
  let xs := x9 + xs
  let x9 := (x9 <<< 11) ||| (x9 >>> (32 - 11))
  let xv := xa + xv
  let xa := (xa <<< 11) ||| (xa >>> (32 - 11))
  let xu := xb + xu
  let xb := (xb <<< 11) ||| (xb >>> (32 - 11))
  let x0 := x0 ^^^ xh
  let x1 := x1 ^^^ xg
  let x2 := x2 ^^^ xj
  let x3 := x3 ^^^ xi
  let x4 := x4 ^^^ xl
  let x5 := x5 ^^^ xk
  let x6 := x6 ^^^ xn
  let x7 := x7 ^^^ xm
  let x8 := x8 ^^^ xp
  let x9 := x9 ^^^ xo
  let xa := xa ^^^ xr
  let xb := xb ^^^ xq
  let xc := xc ^^^ xt
  let xd := xd ^^^ xs
  let xe := xe ^^^ xv
  let xf := xf ^^^ xu
  { x0, x1, x2, x3, x4, x5, x6, x7, x8, x9, xa, xb, xc, xd, xe, xf, xg, xh, xi, xj, xk, xl, xm, xn, xo, xp, xq, xr, xs, xt, xu, xv }

/-- The loop body of `sixteen_rounds`, src/cubehash/mod.rs:125-317. -/
def twoRounds (c : CubeHash) : CubeHash := half2 (half1 c)

/-- `n` iterations of the loop of `sixteen_rounds` (line 124). -/
def roundsLoop : Nat → CubeHash → CubeHash
  | 0, c => c
  | n + 1, c => roundsLoop n (twoRounds c)

/-- `sixteen_rounds`, src/cubehash/mod.rs:122-320. -/
def sixteen_rounds (c : CubeHash) : CubeHash := roundsLoop 8 c

/-- The loop of lines 338-340, `n` iterations. -/
def finalLoop : Nat → CubeHash → CubeHash
  | 0, c => c
  | n + 1, c => finalLoop n (sixteen_rounds c)

/-- `sum` up to the final state, src/cubehash/mod.rs:325-340. -/
def finalState (data : List U8) : Res CubeHash := do
  let c := new_cube_hash
  let buf : List U8 := (List.replicate 32 0).set 0 0x80
  let c ← input_block data c
  let c := sixteen_rounds c
  let c ← input_block buf c
  let c := sixteen_rounds c
  let c := { c with xv := c.xv ^^^ 1 }
  let c := finalLoop 10 c
  pure c

/-- `sum`, src/cubehash/mod.rs:324-351. -/
def sum (data : List U8) : Res (List U8) := do
  let c ← finalState data
  let out : List U8 := []
  let out := out ++ toLeBytes32 c.x0
  let out := out ++ toLeBytes32 c.x1
  let out := out ++ toLeBytes32 c.x2
  let out := out ++ toLeBytes32 c.x3
  let out := out ++ toLeBytes32 c.x4
  let out := out ++ toLeBytes32 c.x5
  let out := out ++ toLeBytes32 c.x6
  let out := out ++ toLeBytes32 c.x7
  pure out

end Model.CubeHash
