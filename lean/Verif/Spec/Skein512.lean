import Verif.Spec.Bytes

/-!
Skein-512-256 (Ferguson, Lucks, Schneier, Whiting, Bellare, Kohno, Callas, Walker: "The Skein hash function family", version
1.3). The crate takes it from `skein-hash`; it is specified here only to instantiate the hash chains.
-/

namespace Spec.Skein512

/-- A 64-bit word. -/
abbrev W := BitVec 64
/-- Eight words: key, plaintext, chaining value. -/
abbrev Words := Vector W 8

/-- Rotation constants of Threefish-512. -/
def rots : Vector (Vector Nat 4) 8 := #v[#v[46, 36, 19, 37], #v[33, 27, 14, 42], #v[17, 49, 36, 39], #v[44, 9, 54, 56],
  #v[39, 30, 34, 24], #v[13, 50, 10, 17], #v[25, 29, 39, 43], #v[8, 35, 56, 22]]

/-- Word permutation of Threefish-512. -/
def perm : Vector (Fin 8) 8 := #v[2, 1, 4, 7, 6, 5, 0, 3]

/-- Subkey number `s`. -/
def subkey (k : Words) (t0 t1 : W) (s : Nat) : Words :=
  let k8 : W := 0x1BD11BDAA9FC1A22 ^^^ k[0] ^^^ k[1] ^^^ k[2] ^^^ k[3] ^^^ k[4] ^^^ k[5] ^^^ k[6] ^^^ k[7]
  let ks : Vector W 9 := k.push k8
  let ts : Vector W 3 := #v[t0, t1, t0 ^^^ t1]
  Vector.ofFn fun i =>
    let x := ks[(s + i.val) % 9]'(Nat.mod_lt _ (by decide))
    if i.val = 5 then x + ts[s % 3]'(Nat.mod_lt _ (by decide))
    else if i.val = 6 then x + ts[(s + 1) % 3]'(Nat.mod_lt _ (by decide))
    else if i.val = 7 then x + BitVec.ofNat 64 s
    else x

/-- One round: four MIX operations and the permutation. -/
def round (d : Nat) (v : Words) : Words :=
  let r := rots[d % 8]'(Nat.mod_lt _ (by decide))
  let f : Words := Vector.ofFn fun i =>
    let j := i.val / 2
    let x0 : W := v[2 * j]
    let x1 : W := v[2 * j + 1]
    let y0 := x0 + x1
    if i.val % 2 = 0 then y0 else x1.rotateLeft (r[j]'(by omega)) ^^^ y0
  Vector.ofFn fun i => f[perm[i]]

/-- Threefish-512. -/
def threefish (k : Words) (t0 t1 : W) (p : Words) : Words :=
  let add (v : Words) (s : Nat) : Words :=
    let sk := subkey k t0 t1 s
    Vector.ofFn fun i => v[i] + sk[i]
  let v := (List.range 72).foldl (fun v d => round d (if d % 4 = 0 then add v (d / 4) else v)) p
  add v 18

/-- Words of a block. -/
def words (b : List Byte) : Words := Vector.ofFn fun i => BitVec.ofNat 64 (leNat ((b.drop (8 * i.val)).take 8))

/-- UBI chaining of a message (padded with zeros, at least one block) with block type `ty`. -/
def ubi (g : Words) (msg : List Byte) (ty : Nat) : Words :=
  let n := max 1 ((msg.length + 63) / 64)
  (List.range n).foldl (fun g i =>
    let b := words ((msg.drop (64 * i)).take 64 ++ List.replicate 64 0)
    let pos := min msg.length (64 * (i + 1))
    let t1 : W := BitVec.ofNat 64 (ty * 2 ^ 56 + (if i = 0 then 2 ^ 62 else 0) + (if i + 1 = n then 2 ^ 63 else 0))
    let e := threefish g (BitVec.ofNat 64 pos) t1 b
    Vector.ofFn fun i => e[i] ^^^ b[i]) g

/-- The configuration string for 256 bits of output. -/
def config : List Byte := [0x53, 0x48, 0x41, 0x33, 1, 0, 0, 0] ++ leBytes 8 256 ++ List.replicate 16 0

/-- Skein-512-256. -/
def hash (msg : List Byte) : List Byte :=
  let g := ubi (Vector.replicate 8 0) config 4
  let g := ubi g msg 48
  let g := ubi g (List.replicate 8 0) 63
  (g.toList.take 4).flatMap fun w => leBytes 8 w.toNat

end Spec.Skein512
