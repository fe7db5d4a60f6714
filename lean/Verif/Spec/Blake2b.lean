/-!
One round of the BLAKE2b permutation with a zero message (RFC 7693, section 3.1-3.2; Lyra2 reference guide, section
"underlying sponge"), in the row-vector form: the 4x4 matrix of words has the rows `a, b, c, d`; `G` works on the four
columns at once; the diagonals are reached by rotating row `i` by `i` places.
-/

namespace Spec.Blake2b

/-- A 64-bit word. -/
abbrev W := BitVec 64

/-- A row of four words. -/
abbrev Row := Vector W 4

/-- Four rows of four words. -/
structure Rows where
  a : Row
  b : Row
  c : Row
  d : Row

/-- Word-wise addition. -/
def add (x y : Row) : Row := Vector.ofFn fun j => x[j] + y[j]
/-- Word-wise exclusive or, each word then rotated right by `r` bits. -/
def xorRot (r : Nat) (x y : Row) : Row := Vector.ofFn fun j => (x[j] ^^^ y[j]).rotateRight r
/-- Rotates a row left by `k` places. -/
def rotRow (k : Fin 4) (x : Row) : Row := Vector.ofFn fun j => x[j + k]

/-- `G` with zero message words on the four columns. -/
def G (x : Rows) : Rows :=
  let a := add x.a x.b
  let d := xorRot 32 x.d a
  let c := add x.c d
  let b := xorRot 24 x.b c
  let a := add a b
  let d := xorRot 16 d a
  let c := add c d
  let b := xorRot 63 b c
  ⟨a, b, c, d⟩

/-- Rotates row `i` left by `i` places: diagonals become columns. -/
def diagonalise (x : Rows) : Rows := ⟨x.a, rotRow 1 x.b, rotRow 2 x.c, rotRow 3 x.d⟩

/-- Rotates row `i` right by `i` places. -/
def undiagonalise (x : Rows) : Rows := ⟨x.a, rotRow 3 x.b, rotRow 2 x.c, rotRow 1 x.d⟩

/-- The rows of a 16-word state. -/
def rows (v : Vector W 16) : Rows :=
  ⟨#v[v[0], v[1], v[2], v[3]], #v[v[4], v[5], v[6], v[7]],
   #v[v[8], v[9], v[10], v[11]], #v[v[12], v[13], v[14], v[15]]⟩

/-- The 16-word state with the given rows. -/
def ofRows (x : Rows) : Vector W 16 :=
  #v[x.a[0], x.a[1], x.a[2], x.a[3], x.b[0], x.b[1], x.b[2], x.b[3],
     x.c[0], x.c[1], x.c[2], x.c[3], x.d[0], x.d[1], x.d[2], x.d[3]]

/-- One round: columns, then diagonals. -/
def round (v : Vector W 16) : Vector W 16 :=
  ofRows (undiagonalise (G (diagonalise (G (rows v)))))

/-- `n` rounds. -/
def rounds : Nat → Vector W 16 → Vector W 16
  | 0, v => v
  | n + 1, v => rounds n (round v)

/-- The BLAKE2b initialisation vector. -/
def iv : Vector W 8 := #v[
  0x6a09e667f3bcc908, 0xbb67ae8584caa73b, 0x3c6ef372fe94f82b, 0xa54ff53a5f1d36f1,
  0x510e527fade682d1, 0x9b05688c2b3e6c1f, 0x1f83d9abfb41bd6b, 0x5be0cd19137e2179]

end Spec.Blake2b
