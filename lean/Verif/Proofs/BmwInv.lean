import Verif.Proofs.Bmw

/-! The first half of the quadrupled pipe is a bijective function of the message block: explicit inverses of the maps
`s_0, ..., s_4` (32 × 32 bit matrices) and of the signed sums (a 16 × 16 matrix of words). -/

namespace Proofs.Bmw
open Rust Spec.Bmw

/-! ## The maps `s_i` -/

/-- A linear map that fixes the 32 unit words is the identity. -/
theorem linear_id {f : W → W} (hf : ∀ x y, f (x ^^^ y) = f x ^^^ f y) (hb : ∀ j : Fin 32, f (BitVec.ofNat 32 (2 ^ j.val)) = BitVec.ofNat 32 (2 ^ j.val))
    (x : W) : f x = x := by
  have h0 : f 0 = 0 := by
    have := hf 0 0
    rw [BitVec.xor_self] at this
    exact this.trans (BitVec.xor_self)
  have key : ∀ n, n ≤ 32 → ∀ x : W, x.toNat < 2 ^ n → f x = x := by
    intro n
    induction n with
    | zero =>
      intro _ x hx
      have : x = 0 := BitVec.eq_of_toNat_eq (by simpa using hx)
      rw [this, h0]
    | succ n ih =>
      intro hn x hx
      by_cases hlt : x.toNat < 2 ^ n
      · exact ih (by omega) x hlt
      · have hp : 2 ^ n < 2 ^ 32 := Nat.pow_lt_pow_right (by decide) (by omega)
        have hu : (BitVec.ofNat 32 (2 ^ n)).toNat = 2 ^ n := by rw [BitVec.toNat_ofNat, Nat.mod_eq_of_lt hp]
        have hy : (x ^^^ BitVec.ofNat 32 (2 ^ n)).toNat < 2 ^ n := by
          rw [BitVec.toNat_xor, hu]
          apply Nat.lt_pow_two_of_testBit
          intro i hi
          rw [Nat.testBit_xor, Nat.testBit_two_pow]
          by_cases he : n = i
          · subst he
            have : x.toNat.testBit n = true := by
              rw [Nat.testBit_eq_decide_div_mod_eq]
              have : x.toNat / 2 ^ n = 1 := by
                apply Nat.div_eq_of_lt_le
                · omega
                · rw [Nat.pow_succ] at hx; omega
              rw [this]; rfl
            simp [this]
          · have : x.toNat.testBit i = false := Nat.testBit_lt_two_pow (Nat.lt_of_lt_of_le hx (Nat.pow_le_pow_right (by decide) (by omega)))
            simp [this, he]
        have e : x = (x ^^^ BitVec.ofNat 32 (2 ^ n)) ^^^ BitVec.ofNat 32 (2 ^ n) := by
          rw [BitVec.xor_assoc, BitVec.xor_self, BitVec.xor_zero]
        have := hf (x ^^^ BitVec.ofNat 32 (2 ^ n)) (BitVec.ofNat 32 (2 ^ n))
        rw [← e, ih (by omega) _ hy, hb ⟨n, by omega⟩, ← e] at this
        exact this
  exact key 32 (Nat.le_refl _) x x.isLt

theorem rotateLeft_xor (x y : W) (r : Nat) : (x ^^^ y).rotateLeft r = x.rotateLeft r ^^^ y.rotateLeft r := by
  apply BitVec.eq_of_getLsbD_eq
  intro i hi
  simp only [BitVec.getLsbD_rotateLeft, BitVec.getLsbD_xor]
  by_cases h : i < r % 32 <;> simp [h, hi]

theorem s_xor (i : Nat) (x y : W) : s i (x ^^^ y) = s i x ^^^ s i y := by
  unfold s
  split <;> simp only [BitVec.ushiftRight_xor_distrib, BitVec.shiftLeft_xor_distrib, rotateLeft_xor] <;> ac_rfl

/-- Columns of the inverses of `s_0, ..., s_4`. -/
def unTable : Vector (Vector W 32) 5 := #v[
  #v[
    0x04010c43, 0x0c0314c5, 0x1c0725c9, 0x380e4b92, 0x741d9b67, 0xe83b36ce, 0x0382e4bf, 0x0304c53d,
    0x02088639, 0x00100031, 0x04210c21, 0x0c431401, 0x1c872441, 0x390e4882, 0x761d9d47, 0xec3b3a8e,
    0x0b82fc3f, 0x1304f43d, 0x2609e87a, 0x4c13d0f4, 0x9827a1e8, 0xe7bac6b0, 0x1c810443, 0x39020886,
    0x76051d4f, 0xec0a3a9e, 0x0be0fc1f, 0x13c0f47d, 0x2781e8fa, 0x4f03d1f4, 0x9e07a3e8, 0xebfac2b0],
  #v[
    0xc1077ec7, 0xaaaaaaaa, 0x7df10270, 0x3ae57a27, 0x75caf44e, 0x2a92965b, 0x55252cb6, 0xaa4a596c,
    0x7c30e5fc, 0x3966b53f, 0x72cd6a7e, 0x249daa3b, 0x493b5476, 0x9276a8ec, 0xcd4e783b, 0xb238a752,
    0x4cd51980, 0x99aa3300, 0xdaf74fe3, 0x9d4ac8e2, 0xd336b827, 0x8ec9276a, 0xf4316737, 0x01c1e78d,
    0xc284b1dd, 0xadad349e, 0x73fe3e18, 0x26fb02f7, 0x4df605ee, 0x9bec0bdc, 0xde7b3e5b, 0x94522b92],
  #v[
    0x64ffa095, 0xad00e1bf, 0xc6abd700, 0x11fdba7e, 0x4704d469, 0xeaf60847, 0x2db9a465, 0x5b7348ca,
    0xb6e69194, 0x959897c3, 0xb79b3bf8, 0x9763c31b, 0xb26d9248, 0x9c8e907b, 0xa5b73488, 0xb33bddfb,
    0xfaddaf88, 0x69114b6e, 0xd22296dc, 0x38ef39c6, 0x1521d319, 0x2a43a632, 0x3078ecf1, 0x60f1d9e2,
    0xc1e3b3c4, 0x1f6d73f6, 0x5a254779, 0xd0b52e67, 0x593fe825, 0xd68070df, 0x55555555, 0xce550a3f],
  #v[
    0xe1dec66e, 0xda45c99d, 0xad73d67b, 0x431fe9b7, 0x67e11500, 0x2e1cec6e, 0x5c39d8dc, 0xb873b1b8,
    0x88c1e05f, 0xe9a54391, 0x2b6c040d, 0xb706ce74, 0x962b1fc7, 0xd470bca1, 0xb1193c03, 0x7bca3d47,
    0xf7947a8e, 0xf6d0b05d, 0x1587e395, 0x2b0fc72a, 0x561f8e54, 0xac3f1ca8, 0xa058ba7f, 0x594931bf,
    0x534ca510, 0xa6994a20, 0xb514176f, 0x73d06b9f, 0xe7a0d73e, 0xd6b9eb3d, 0xb48b933b, 0x70ef6337],
  #v[
    0x00000001, 0x00000003, 0x00000007, 0x0000000f, 0x0000001f, 0x0000003f, 0x0000007f, 0x000000ff,
    0x000001ff, 0x000003ff, 0x000007ff, 0x00000fff, 0x00001fff, 0x00003fff, 0x00007fff, 0x0000ffff,
    0x0001ffff, 0x0003ffff, 0x0007ffff, 0x000fffff, 0x001fffff, 0x003fffff, 0x007fffff, 0x00ffffff,
    0x01ffffff, 0x03ffffff, 0x07ffffff, 0x0fffffff, 0x1fffffff, 0x3fffffff, 0x7fffffff, 0xffffffff]]

/-- Inverse of `s_i`, `i < 5`: the xor of the columns selected by the bits of `y`. -/
def unS (i : Fin 5) (y : W) : W := (List.finRange 32).foldl (fun a (j : Fin 32) => a ^^^ (if y.getLsbD j.val then unTable[i][j] else 0)) 0

theorem fold_xor (t : Fin 32 → W) (l : List (Fin 32)) (x y a b : W) :
    l.foldl (fun a (j : Fin 32) => a ^^^ (if (x ^^^ y).getLsbD j.val then t j else 0)) (a ^^^ b) =
      l.foldl (fun a (j : Fin 32) => a ^^^ (if x.getLsbD j.val then t j else 0)) a ^^^ l.foldl (fun a (j : Fin 32) => a ^^^ (if y.getLsbD j.val then t j else 0)) b := by
  induction l generalizing a b with
  | nil => rfl
  | cons j l ih =>
    rw [List.foldl_cons, List.foldl_cons, List.foldl_cons, ← ih]
    congr 1
    rw [BitVec.getLsbD_xor]
    have e : a ^^^ b = a ^^^ t j ^^^ (b ^^^ t j) := by
      rw [show a ^^^ t j ^^^ (b ^^^ t j) = a ^^^ b ^^^ (t j ^^^ t j) by ac_rfl, BitVec.xor_self, BitVec.xor_zero]
    cases x.getLsbD j.val <;> cases y.getLsbD j.val
    · simp
    · simp; ac_rfl
    · simp; ac_rfl
    · simpa using e

theorem unS_xor (i : Fin 5) (x y : W) : unS i (x ^^^ y) = unS i x ^^^ unS i y := by
  have := fold_xor (fun j => unTable[i][j]) (List.finRange 32) x y 0 0
  rw [BitVec.xor_self] at this
  exact this

theorem unS_basis : ∀ (i : Fin 5) (j : Fin 32), unS i (s i (BitVec.ofNat 32 (2 ^ j.val))) = BitVec.ofNat 32 (2 ^ j.val) := by decide +kernel
theorem s_basis : ∀ (i : Fin 5) (j : Fin 32), s i (unS i (BitVec.ofNat 32 (2 ^ j.val))) = BitVec.ofNat 32 (2 ^ j.val) := by decide +kernel

theorem unS_s (i : Fin 5) (x : W) : unS i (s i x) = x :=
  linear_id (f := fun x => unS i (s i x)) (fun x y => by rw [s_xor, unS_xor]) (unS_basis i) x

theorem s_unS (i : Fin 5) (x : W) : s i (unS i x) = x :=
  linear_id (f := fun x => s i (unS i x)) (fun x y => by rw [unS_xor, s_xor]) (s_basis i) x

/-! ## The signed sums -/

/-- The inverse matrix. -/
def un0 (w : Words) : W :=
  0x90ae690b * w[0] + 0xe989be98 * w[1] + 0xe592fe59 * w[2] + 0xce1f0ce2 * w[3] + 0xa4802a48 * w[4] + 0x8bb9f8bc * w[5] + 0xb558db55 * w[6] + 0xed807ed8 * w[7] + 0x611d6612 * w[8] + 0x17c8817d * w[9] + 0xd95a2d95 * w[10] + 0x1621b162 * w[11] + 0x15789157 * w[12] + 0x9c3e19c4 * w[13] + 0x2beed2bf * w[14] + 0x8abc48ac * w[15]
def un1 (w : Words) : W :=
  0x4ba4d4ba * w[0] + 0x2303a231 * w[1] + 0xb0b8fb0c * w[2] + 0x3729f373 * w[3] + 0x871a1872 * w[4] + 0x3cc783cc * w[5] + 0xecd75ece * w[6] + 0x954e4955 * w[7] + 0xf024ff02 * w[8] + 0xadbfeadc * w[9] + 0x25a8225b * w[10] + 0xa8cb7a8d * w[11] + 0x4069b408 * w[12] + 0x6e53e6e5 * w[13] + 0x1d6611d6 * w[14] + 0xa034da03 * w[15]
def un2 (w : Words) : W :=
  0x6e53e6e5 * w[0] + 0x896a08a * w[1] + 0xfb0b8fb1 * w[2] + 0xc03f6c04 * w[3] + 0xb20b3b21 * w[4] + 0x1d6611d6 * w[5] + 0x2b9a42ba * w[6] + 0x1621b162 * w[7] + 0xcbcf1cbd * w[8] + 0x51426514 * w[9] + 0xbbf41bc0 * w[10] + 0xe0f31e0f * w[11] + 0xb4069b41 * w[12] + 0x807ed808 * w[13] + 0xab6ffab7 * w[14] + 0xda034da0 * w[15]
def un3 (w : Words) : W :=
  0xf8670f86 * w[0] + 0x95a2d95b * w[1] + 0x64bf964c * w[2] + 0xee299ee3 * w[3] + 0xecd75ece * w[4] + 0xbb4afbb5 * w[5] + 0xbc9d3bca * w[6] + 0xc6861c68 * w[7] + 0xadbfeadc * w[8] + 0x25539255 * w[9] + 0x23583236 * w[10] + 0xbb9f8bba * w[11] + 0x5e2455e3 * w[12] + 0xdc533dc5 * w[13] + 0xc8817c88 * w[14] + 0xaf122af1 * w[15]
def un4 (w : Words) : W :=
  0x6318c631 * w[0] + 0x6b5ad6b6 * w[1] + 0x42108421 * w[2] + 0x6318c632 * w[3] + 0x318c6319 * w[4] + 0xef7bdef8 * w[5] + 0x21084211 * w[6] + 0x94a5294a * w[7] + 0x739ce73a * w[8] + 0xf7bdef7c * w[9] + 0xad6b5ad7 * w[10] + 0x7bdef7be * w[11] + 0x4a5294a6 * w[12] + 0xc6318c63 * w[13] + 0xdef7bdef * w[14] + 0xa5294a52 * w[15]
def un5 (w : Words) : W :=
  0xc533dc54 * w[0] + 0xc8d60c8d * w[1] + 0x64bf964c * w[2] + 0x54900549 * w[3] + 0xb9a42b9a * w[4] + 0x8817c881 * w[5] + 0x2303a230 * w[6] + 0x2cec82cf * w[7] + 0x14265142 * w[8] + 0x5886c588 * w[9] + 0xf024ff02 * w[10] + 0xeed2beed * w[11] + 0x5e2455e2 * w[12] + 0xa9200a92 * w[13] + 0x954e4955 * w[14] + 0xaf122af1 * w[15]
def un6 (w : Words) : W :=
  0x6611d661 * w[0] + 0x94f9b950 * w[1] + 0xa034da03 * w[2] + 0xb7fd5b80 * w[3] + 0x2dea32df * w[4] + 0xf41bbf42 * w[5] + 0x7e2ee7e3 * w[6] + 0x89be989c * w[7] + 0xecd75ecd * w[8] + 0xbc9d3bca * w[9] + 0xed807ed8 * w[10] + 0x96a0896a * w[11] + 0xedd50edd * w[12] + 0x6ffab700 * w[13] + 0x58db558e * w[14] + 0x76ea876f * w[15]
def un7 (w : Words) : W :=
  0x1b6ab1b7 * w[0] + 0x7fd5b7fd * w[1] + 0xedd50ee * w[2] + 0xf274ef27 * w[3] + 0x5044b504 * w[4] + 0xe3430e3 * w[5] + 0xb0646b06 * w[6] + 0xf0ce1f0d * w[7] + 0xcfc5dcfc * w[8] + 0xa5d26a5d * w[9] + 0x328a1328 * w[10] + 0xf6c03f6c * w[11] + 0xe3ec2e3e * w[12] + 0xe4e9de4f * w[13] + 0x64167642 * w[14] + 0x71f61720 * w[15]
def un8 (w : Words) : W :=
  0x1a1871a2 * w[0] + 0x6d5636d5 * w[1] + 0x8fb0b8fb * w[2] + 0x59d905a * w[3] + 0x6e53e6e5 * w[4] + 0x45099450 * w[5] + 0xdc533dc5 * w[6] + 0x4afbb4b0 * w[7] + 0xb6568b65 * w[8] + 0x31e0f31e * w[9] + 0x4ef274ef * w[10] + 0xeadbfeae * w[11] + 0x9b4069b4 * w[12] + 0xb3b20b4 * w[13] + 0x2dea32df * w[14] + 0x4da034da * w[15]
def un9 (w : Words) : W :=
  0xaa1dbaa2 * w[0] + 0x4da034da * w[1] + 0xb5ad6b5b * w[2] + 0xdd50edd5 * w[3] + 0xa1dbaa1e * w[4] + 0xec2e3ec3 * w[5] + 0x27a3827a * w[6] + 0xe592fe59 * w[7] + 0x8abc48ac * w[8] + 0x8fb0b8fb * w[9] + 0x3680d368 * w[10] + 0xfb0b8fb1 * w[11] + 0x8c6318c6 * w[12] + 0xbaa1dbaa * w[13] + 0x3ec2e3ec * w[14] + 0xc6318c63 * w[15]
def un10 (w : Words) : W :=
  0xcc23acc3 * w[0] + 0x29f3729e * w[1] + 0x4069b406 * w[2] + 0x6ffab6ff * w[3] + 0x5bd465bd * w[4] + 0xe8377e84 * w[5] + 0xfc5dcfc5 * w[6] + 0x137d3138 * w[7] + 0xd9aebd9b * w[8] + 0x793a7794 * w[9] + 0xdb00fdaf * w[10] + 0x2d4112d4 * w[11] + 0xdbaa1db9 * w[12] + 0xdff56e00 * w[13] + 0xb1b6ab1c * w[14] + 0xedd50ede * w[15]
def un11 (w : Words) : W :=
  0x4704f470 * w[0] + 0xe2455e25 * w[1] + 0x739ce73a * w[2] + 0x7a3827a4 * w[3] + 0x704f4705 * w[4] + 0xfcb25fcb * w[5] + 0x69b406a * w[6] + 0x50edd50f * w[7] + 0x171f6172 * w[8] + 0x97f2c97f * w[9] + 0x89157892 * w[10] + 0x7f2c97f3 * w[11] + 0x42108422 * w[12] + 0xf4704f47 * w[13] + 0x5fcb25fc * w[14] + 0x21084210 * w[15]
def un12 (w : Words) : W :=
  0x646b064 * w[0] + 0x57dda57e * w[1] + 0x1c13d1c1 * w[2] + 0x24ff0250 * w[3] + 0x3137d314 * w[4] + 0x7b8a67b9 * w[5] + 0x6f5196f5 * w[6] + 0x93a7793a * w[7] + 0x38d0c38d * w[8] + 0x66baf66c * w[9] + 0xf9102f91 * w[10] + 0x387c3388 * w[11] + 0x592fe593 * w[12] + 0x49fe04a0 * w[13] + 0x1524015 * w[14] + 0x2c97f2ca * w[15]
def un13 (w : Words) : W :=
  0x6d01a6d0 * w[0] + 0xf6171f62 * w[1] + 0x7bdef7be * w[2] + 0xd3680d37 * w[3] + 0xd01a6d02 * w[4] + 0x543b7544 * w[5] + 0x57891579 * w[6] + 0x704f4705 * w[7] + 0xb25fcb26 * w[8] + 0xdd50edd5 * w[9] + 0xd85c7d86 * w[10] + 0xd50edd51 * w[11] + 0x6b5ad6b6 * w[12] + 0xa6d01a6d * w[13] + 0x7543b754 * w[14] + 0xb5ad6b5b * w[15]
def un14 (w : Words) : W :=
  0x1d1181d1 * w[0] + 0x96f51970 * w[1] + 0xedd50ede * w[2] + 0x5a8225a8 * w[3] + 0x6ab1b6ab * w[4] + 0x49a9749a * w[5] + 0x3979e398 * w[6] + 0x40152401 * w[7] + 0x2f9102f9 * w[8] + 0xf6c03f6c * w[9] + 0x8f0798f1 * w[10] + 0x59d905a * w[11] + 0x3ec2e3ed * w[12] + 0xb5044b50 * w[13] + 0xa7cdca7d * w[14] + 0x1f6171f6 * w[15]
def un15 (w : Words) : W :=
  0xb00fdb00 * w[0] + 0xa0ddfa0f * w[1] + 0x71f61720 * w[2] + 0x871a1872 * w[3] + 0x9a9749aa * w[4] + 0xf56dff57 * w[5] + 0xe1f0ce20 * w[6] + 0xcfc5dcfc * w[7] + 0x7d3137d3 * w[8] + 0x196f5197 * w[9] + 0xb6ab1b6c * w[10] + 0x308eb309 * w[11] + 0xd3680d38 * w[12] + 0xe3430e3 * w[13] + 0x328a1328 * w[14] + 0x69b4069b * w[15]

/-- Inverse of the signed sums. -/
def unMix (w : Words) : Words := #v[un0 w, un1 w, un2 w, un3 w, un4 w, un5 w, un6 w, un7 w, un8 w, un9 w, un10 w, un11 w, un12 w, un13 w, un14 w, un15 w]

/-- The signed sums. -/
def sums (x : Words) : Words := #v[
  x[5] - x[7] + x[10] + x[13] + x[14],
  x[6] - x[8] + x[11] + x[14] - x[15],
  x[0] + x[7] + x[9] - x[12] + x[15],
  x[0] - x[1] + x[8] - x[10] + x[13],
  x[1] + x[2] + x[9] - x[11] - x[14],
  x[3] - x[2] + x[10] - x[12] + x[15],
  x[4] - x[0] - x[3] - x[11] + x[13],
  x[1] - x[4] - x[5] - x[12] - x[14],
  x[2] - x[5] - x[6] + x[13] - x[15],
  x[0] - x[3] + x[6] - x[7] + x[14],
  x[8] - x[1] - x[4] - x[7] + x[15],
  x[8] - x[0] - x[2] - x[5] + x[9],
  x[1] + x[3] - x[6] - x[9] + x[10],
  x[2] + x[4] + x[7] + x[10] + x[11],
  x[3] - x[5] + x[8] - x[11] - x[12],
  x[12] - x[4] - x[6] - x[9] + x[13]]

theorem unsum0 (x0 x1 x2 x3 x4 x5 x6 x7 x8 x9 x10 x11 x12 x13 x14 x15 : W) : 0x90ae690b * (x5 - x7 + x10 + x13 + x14) + 0xe989be98 * (x6 - x8 + x11 + x14 - x15) + 0xe592fe59 * (x0 + x7 + x9 - x12 + x15) + 0xce1f0ce2 * (x0 - x1 + x8 - x10 + x13) + 0xa4802a48 * (x1 + x2 + x9 - x11 - x14) + 0x8bb9f8bc * (x3 - x2 + x10 - x12 + x15) + 0xb558db55 * (x4 - x0 - x3 - x11 + x13) + 0xed807ed8 * (x1 - x4 - x5 - x12 - x14) + 0x611d6612 * (x2 - x5 - x6 + x13 - x15) + 0x17c8817d * (x0 - x3 + x6 - x7 + x14) + 0xd95a2d95 * (x8 - x1 - x4 - x7 + x15) + 0x1621b162 * (x8 - x0 - x2 - x5 + x9) + 0x15789157 * (x1 + x3 - x6 - x9 + x10) + 0x9c3e19c4 * (x2 + x4 + x7 + x10 + x11) + 0x2beed2bf * (x3 - x5 + x8 - x11 - x12) + 0x8abc48ac * (x12 - x4 - x6 - x9 + x13) = x0 := by
  grind

theorem unsum1 (x0 x1 x2 x3 x4 x5 x6 x7 x8 x9 x10 x11 x12 x13 x14 x15 : W) : 0x4ba4d4ba * (x5 - x7 + x10 + x13 + x14) + 0x2303a231 * (x6 - x8 + x11 + x14 - x15) + 0xb0b8fb0c * (x0 + x7 + x9 - x12 + x15) + 0x3729f373 * (x0 - x1 + x8 - x10 + x13) + 0x871a1872 * (x1 + x2 + x9 - x11 - x14) + 0x3cc783cc * (x3 - x2 + x10 - x12 + x15) + 0xecd75ece * (x4 - x0 - x3 - x11 + x13) + 0x954e4955 * (x1 - x4 - x5 - x12 - x14) + 0xf024ff02 * (x2 - x5 - x6 + x13 - x15) + 0xadbfeadc * (x0 - x3 + x6 - x7 + x14) + 0x25a8225b * (x8 - x1 - x4 - x7 + x15) + 0xa8cb7a8d * (x8 - x0 - x2 - x5 + x9) + 0x4069b408 * (x1 + x3 - x6 - x9 + x10) + 0x6e53e6e5 * (x2 + x4 + x7 + x10 + x11) + 0x1d6611d6 * (x3 - x5 + x8 - x11 - x12) + 0xa034da03 * (x12 - x4 - x6 - x9 + x13) = x1 := by
  grind

theorem unsum2 (x0 x1 x2 x3 x4 x5 x6 x7 x8 x9 x10 x11 x12 x13 x14 x15 : W) : 0x6e53e6e5 * (x5 - x7 + x10 + x13 + x14) + 0x896a08a * (x6 - x8 + x11 + x14 - x15) + 0xfb0b8fb1 * (x0 + x7 + x9 - x12 + x15) + 0xc03f6c04 * (x0 - x1 + x8 - x10 + x13) + 0xb20b3b21 * (x1 + x2 + x9 - x11 - x14) + 0x1d6611d6 * (x3 - x2 + x10 - x12 + x15) + 0x2b9a42ba * (x4 - x0 - x3 - x11 + x13) + 0x1621b162 * (x1 - x4 - x5 - x12 - x14) + 0xcbcf1cbd * (x2 - x5 - x6 + x13 - x15) + 0x51426514 * (x0 - x3 + x6 - x7 + x14) + 0xbbf41bc0 * (x8 - x1 - x4 - x7 + x15) + 0xe0f31e0f * (x8 - x0 - x2 - x5 + x9) + 0xb4069b41 * (x1 + x3 - x6 - x9 + x10) + 0x807ed808 * (x2 + x4 + x7 + x10 + x11) + 0xab6ffab7 * (x3 - x5 + x8 - x11 - x12) + 0xda034da0 * (x12 - x4 - x6 - x9 + x13) = x2 := by
  grind

theorem unsum3 (x0 x1 x2 x3 x4 x5 x6 x7 x8 x9 x10 x11 x12 x13 x14 x15 : W) : 0xf8670f86 * (x5 - x7 + x10 + x13 + x14) + 0x95a2d95b * (x6 - x8 + x11 + x14 - x15) + 0x64bf964c * (x0 + x7 + x9 - x12 + x15) + 0xee299ee3 * (x0 - x1 + x8 - x10 + x13) + 0xecd75ece * (x1 + x2 + x9 - x11 - x14) + 0xbb4afbb5 * (x3 - x2 + x10 - x12 + x15) + 0xbc9d3bca * (x4 - x0 - x3 - x11 + x13) + 0xc6861c68 * (x1 - x4 - x5 - x12 - x14) + 0xadbfeadc * (x2 - x5 - x6 + x13 - x15) + 0x25539255 * (x0 - x3 + x6 - x7 + x14) + 0x23583236 * (x8 - x1 - x4 - x7 + x15) + 0xbb9f8bba * (x8 - x0 - x2 - x5 + x9) + 0x5e2455e3 * (x1 + x3 - x6 - x9 + x10) + 0xdc533dc5 * (x2 + x4 + x7 + x10 + x11) + 0xc8817c88 * (x3 - x5 + x8 - x11 - x12) + 0xaf122af1 * (x12 - x4 - x6 - x9 + x13) = x3 := by
  grind

theorem unsum4 (x0 x1 x2 x3 x4 x5 x6 x7 x8 x9 x10 x11 x12 x13 x14 x15 : W) : 0x6318c631 * (x5 - x7 + x10 + x13 + x14) + 0x6b5ad6b6 * (x6 - x8 + x11 + x14 - x15) + 0x42108421 * (x0 + x7 + x9 - x12 + x15) + 0x6318c632 * (x0 - x1 + x8 - x10 + x13) + 0x318c6319 * (x1 + x2 + x9 - x11 - x14) + 0xef7bdef8 * (x3 - x2 + x10 - x12 + x15) + 0x21084211 * (x4 - x0 - x3 - x11 + x13) + 0x94a5294a * (x1 - x4 - x5 - x12 - x14) + 0x739ce73a * (x2 - x5 - x6 + x13 - x15) + 0xf7bdef7c * (x0 - x3 + x6 - x7 + x14) + 0xad6b5ad7 * (x8 - x1 - x4 - x7 + x15) + 0x7bdef7be * (x8 - x0 - x2 - x5 + x9) + 0x4a5294a6 * (x1 + x3 - x6 - x9 + x10) + 0xc6318c63 * (x2 + x4 + x7 + x10 + x11) + 0xdef7bdef * (x3 - x5 + x8 - x11 - x12) + 0xa5294a52 * (x12 - x4 - x6 - x9 + x13) = x4 := by
  grind

theorem unsum5 (x0 x1 x2 x3 x4 x5 x6 x7 x8 x9 x10 x11 x12 x13 x14 x15 : W) : 0xc533dc54 * (x5 - x7 + x10 + x13 + x14) + 0xc8d60c8d * (x6 - x8 + x11 + x14 - x15) + 0x64bf964c * (x0 + x7 + x9 - x12 + x15) + 0x54900549 * (x0 - x1 + x8 - x10 + x13) + 0xb9a42b9a * (x1 + x2 + x9 - x11 - x14) + 0x8817c881 * (x3 - x2 + x10 - x12 + x15) + 0x2303a230 * (x4 - x0 - x3 - x11 + x13) + 0x2cec82cf * (x1 - x4 - x5 - x12 - x14) + 0x14265142 * (x2 - x5 - x6 + x13 - x15) + 0x5886c588 * (x0 - x3 + x6 - x7 + x14) + 0xf024ff02 * (x8 - x1 - x4 - x7 + x15) + 0xeed2beed * (x8 - x0 - x2 - x5 + x9) + 0x5e2455e2 * (x1 + x3 - x6 - x9 + x10) + 0xa9200a92 * (x2 + x4 + x7 + x10 + x11) + 0x954e4955 * (x3 - x5 + x8 - x11 - x12) + 0xaf122af1 * (x12 - x4 - x6 - x9 + x13) = x5 := by
  grind

theorem unsum6 (x0 x1 x2 x3 x4 x5 x6 x7 x8 x9 x10 x11 x12 x13 x14 x15 : W) : 0x6611d661 * (x5 - x7 + x10 + x13 + x14) + 0x94f9b950 * (x6 - x8 + x11 + x14 - x15) + 0xa034da03 * (x0 + x7 + x9 - x12 + x15) + 0xb7fd5b80 * (x0 - x1 + x8 - x10 + x13) + 0x2dea32df * (x1 + x2 + x9 - x11 - x14) + 0xf41bbf42 * (x3 - x2 + x10 - x12 + x15) + 0x7e2ee7e3 * (x4 - x0 - x3 - x11 + x13) + 0x89be989c * (x1 - x4 - x5 - x12 - x14) + 0xecd75ecd * (x2 - x5 - x6 + x13 - x15) + 0xbc9d3bca * (x0 - x3 + x6 - x7 + x14) + 0xed807ed8 * (x8 - x1 - x4 - x7 + x15) + 0x96a0896a * (x8 - x0 - x2 - x5 + x9) + 0xedd50edd * (x1 + x3 - x6 - x9 + x10) + 0x6ffab700 * (x2 + x4 + x7 + x10 + x11) + 0x58db558e * (x3 - x5 + x8 - x11 - x12) + 0x76ea876f * (x12 - x4 - x6 - x9 + x13) = x6 := by
  grind

theorem unsum7 (x0 x1 x2 x3 x4 x5 x6 x7 x8 x9 x10 x11 x12 x13 x14 x15 : W) : 0x1b6ab1b7 * (x5 - x7 + x10 + x13 + x14) + 0x7fd5b7fd * (x6 - x8 + x11 + x14 - x15) + 0xedd50ee * (x0 + x7 + x9 - x12 + x15) + 0xf274ef27 * (x0 - x1 + x8 - x10 + x13) + 0x5044b504 * (x1 + x2 + x9 - x11 - x14) + 0xe3430e3 * (x3 - x2 + x10 - x12 + x15) + 0xb0646b06 * (x4 - x0 - x3 - x11 + x13) + 0xf0ce1f0d * (x1 - x4 - x5 - x12 - x14) + 0xcfc5dcfc * (x2 - x5 - x6 + x13 - x15) + 0xa5d26a5d * (x0 - x3 + x6 - x7 + x14) + 0x328a1328 * (x8 - x1 - x4 - x7 + x15) + 0xf6c03f6c * (x8 - x0 - x2 - x5 + x9) + 0xe3ec2e3e * (x1 + x3 - x6 - x9 + x10) + 0xe4e9de4f * (x2 + x4 + x7 + x10 + x11) + 0x64167642 * (x3 - x5 + x8 - x11 - x12) + 0x71f61720 * (x12 - x4 - x6 - x9 + x13) = x7 := by
  grind

theorem unsum8 (x0 x1 x2 x3 x4 x5 x6 x7 x8 x9 x10 x11 x12 x13 x14 x15 : W) : 0x1a1871a2 * (x5 - x7 + x10 + x13 + x14) + 0x6d5636d5 * (x6 - x8 + x11 + x14 - x15) + 0x8fb0b8fb * (x0 + x7 + x9 - x12 + x15) + 0x59d905a * (x0 - x1 + x8 - x10 + x13) + 0x6e53e6e5 * (x1 + x2 + x9 - x11 - x14) + 0x45099450 * (x3 - x2 + x10 - x12 + x15) + 0xdc533dc5 * (x4 - x0 - x3 - x11 + x13) + 0x4afbb4b0 * (x1 - x4 - x5 - x12 - x14) + 0xb6568b65 * (x2 - x5 - x6 + x13 - x15) + 0x31e0f31e * (x0 - x3 + x6 - x7 + x14) + 0x4ef274ef * (x8 - x1 - x4 - x7 + x15) + 0xeadbfeae * (x8 - x0 - x2 - x5 + x9) + 0x9b4069b4 * (x1 + x3 - x6 - x9 + x10) + 0xb3b20b4 * (x2 + x4 + x7 + x10 + x11) + 0x2dea32df * (x3 - x5 + x8 - x11 - x12) + 0x4da034da * (x12 - x4 - x6 - x9 + x13) = x8 := by
  grind

theorem unsum9 (x0 x1 x2 x3 x4 x5 x6 x7 x8 x9 x10 x11 x12 x13 x14 x15 : W) : 0xaa1dbaa2 * (x5 - x7 + x10 + x13 + x14) + 0x4da034da * (x6 - x8 + x11 + x14 - x15) + 0xb5ad6b5b * (x0 + x7 + x9 - x12 + x15) + 0xdd50edd5 * (x0 - x1 + x8 - x10 + x13) + 0xa1dbaa1e * (x1 + x2 + x9 - x11 - x14) + 0xec2e3ec3 * (x3 - x2 + x10 - x12 + x15) + 0x27a3827a * (x4 - x0 - x3 - x11 + x13) + 0xe592fe59 * (x1 - x4 - x5 - x12 - x14) + 0x8abc48ac * (x2 - x5 - x6 + x13 - x15) + 0x8fb0b8fb * (x0 - x3 + x6 - x7 + x14) + 0x3680d368 * (x8 - x1 - x4 - x7 + x15) + 0xfb0b8fb1 * (x8 - x0 - x2 - x5 + x9) + 0x8c6318c6 * (x1 + x3 - x6 - x9 + x10) + 0xbaa1dbaa * (x2 + x4 + x7 + x10 + x11) + 0x3ec2e3ec * (x3 - x5 + x8 - x11 - x12) + 0xc6318c63 * (x12 - x4 - x6 - x9 + x13) = x9 := by
  grind

theorem unsum10 (x0 x1 x2 x3 x4 x5 x6 x7 x8 x9 x10 x11 x12 x13 x14 x15 : W) : 0xcc23acc3 * (x5 - x7 + x10 + x13 + x14) + 0x29f3729e * (x6 - x8 + x11 + x14 - x15) + 0x4069b406 * (x0 + x7 + x9 - x12 + x15) + 0x6ffab6ff * (x0 - x1 + x8 - x10 + x13) + 0x5bd465bd * (x1 + x2 + x9 - x11 - x14) + 0xe8377e84 * (x3 - x2 + x10 - x12 + x15) + 0xfc5dcfc5 * (x4 - x0 - x3 - x11 + x13) + 0x137d3138 * (x1 - x4 - x5 - x12 - x14) + 0xd9aebd9b * (x2 - x5 - x6 + x13 - x15) + 0x793a7794 * (x0 - x3 + x6 - x7 + x14) + 0xdb00fdaf * (x8 - x1 - x4 - x7 + x15) + 0x2d4112d4 * (x8 - x0 - x2 - x5 + x9) + 0xdbaa1db9 * (x1 + x3 - x6 - x9 + x10) + 0xdff56e00 * (x2 + x4 + x7 + x10 + x11) + 0xb1b6ab1c * (x3 - x5 + x8 - x11 - x12) + 0xedd50ede * (x12 - x4 - x6 - x9 + x13) = x10 := by
  grind

theorem unsum11 (x0 x1 x2 x3 x4 x5 x6 x7 x8 x9 x10 x11 x12 x13 x14 x15 : W) : 0x4704f470 * (x5 - x7 + x10 + x13 + x14) + 0xe2455e25 * (x6 - x8 + x11 + x14 - x15) + 0x739ce73a * (x0 + x7 + x9 - x12 + x15) + 0x7a3827a4 * (x0 - x1 + x8 - x10 + x13) + 0x704f4705 * (x1 + x2 + x9 - x11 - x14) + 0xfcb25fcb * (x3 - x2 + x10 - x12 + x15) + 0x69b406a * (x4 - x0 - x3 - x11 + x13) + 0x50edd50f * (x1 - x4 - x5 - x12 - x14) + 0x171f6172 * (x2 - x5 - x6 + x13 - x15) + 0x97f2c97f * (x0 - x3 + x6 - x7 + x14) + 0x89157892 * (x8 - x1 - x4 - x7 + x15) + 0x7f2c97f3 * (x8 - x0 - x2 - x5 + x9) + 0x42108422 * (x1 + x3 - x6 - x9 + x10) + 0xf4704f47 * (x2 + x4 + x7 + x10 + x11) + 0x5fcb25fc * (x3 - x5 + x8 - x11 - x12) + 0x21084210 * (x12 - x4 - x6 - x9 + x13) = x11 := by
  grind

theorem unsum12 (x0 x1 x2 x3 x4 x5 x6 x7 x8 x9 x10 x11 x12 x13 x14 x15 : W) : 0x646b064 * (x5 - x7 + x10 + x13 + x14) + 0x57dda57e * (x6 - x8 + x11 + x14 - x15) + 0x1c13d1c1 * (x0 + x7 + x9 - x12 + x15) + 0x24ff0250 * (x0 - x1 + x8 - x10 + x13) + 0x3137d314 * (x1 + x2 + x9 - x11 - x14) + 0x7b8a67b9 * (x3 - x2 + x10 - x12 + x15) + 0x6f5196f5 * (x4 - x0 - x3 - x11 + x13) + 0x93a7793a * (x1 - x4 - x5 - x12 - x14) + 0x38d0c38d * (x2 - x5 - x6 + x13 - x15) + 0x66baf66c * (x0 - x3 + x6 - x7 + x14) + 0xf9102f91 * (x8 - x1 - x4 - x7 + x15) + 0x387c3388 * (x8 - x0 - x2 - x5 + x9) + 0x592fe593 * (x1 + x3 - x6 - x9 + x10) + 0x49fe04a0 * (x2 + x4 + x7 + x10 + x11) + 0x1524015 * (x3 - x5 + x8 - x11 - x12) + 0x2c97f2ca * (x12 - x4 - x6 - x9 + x13) = x12 := by
  grind

theorem unsum13 (x0 x1 x2 x3 x4 x5 x6 x7 x8 x9 x10 x11 x12 x13 x14 x15 : W) : 0x6d01a6d0 * (x5 - x7 + x10 + x13 + x14) + 0xf6171f62 * (x6 - x8 + x11 + x14 - x15) + 0x7bdef7be * (x0 + x7 + x9 - x12 + x15) + 0xd3680d37 * (x0 - x1 + x8 - x10 + x13) + 0xd01a6d02 * (x1 + x2 + x9 - x11 - x14) + 0x543b7544 * (x3 - x2 + x10 - x12 + x15) + 0x57891579 * (x4 - x0 - x3 - x11 + x13) + 0x704f4705 * (x1 - x4 - x5 - x12 - x14) + 0xb25fcb26 * (x2 - x5 - x6 + x13 - x15) + 0xdd50edd5 * (x0 - x3 + x6 - x7 + x14) + 0xd85c7d86 * (x8 - x1 - x4 - x7 + x15) + 0xd50edd51 * (x8 - x0 - x2 - x5 + x9) + 0x6b5ad6b6 * (x1 + x3 - x6 - x9 + x10) + 0xa6d01a6d * (x2 + x4 + x7 + x10 + x11) + 0x7543b754 * (x3 - x5 + x8 - x11 - x12) + 0xb5ad6b5b * (x12 - x4 - x6 - x9 + x13) = x13 := by
  grind

theorem unsum14 (x0 x1 x2 x3 x4 x5 x6 x7 x8 x9 x10 x11 x12 x13 x14 x15 : W) : 0x1d1181d1 * (x5 - x7 + x10 + x13 + x14) + 0x96f51970 * (x6 - x8 + x11 + x14 - x15) + 0xedd50ede * (x0 + x7 + x9 - x12 + x15) + 0x5a8225a8 * (x0 - x1 + x8 - x10 + x13) + 0x6ab1b6ab * (x1 + x2 + x9 - x11 - x14) + 0x49a9749a * (x3 - x2 + x10 - x12 + x15) + 0x3979e398 * (x4 - x0 - x3 - x11 + x13) + 0x40152401 * (x1 - x4 - x5 - x12 - x14) + 0x2f9102f9 * (x2 - x5 - x6 + x13 - x15) + 0xf6c03f6c * (x0 - x3 + x6 - x7 + x14) + 0x8f0798f1 * (x8 - x1 - x4 - x7 + x15) + 0x59d905a * (x8 - x0 - x2 - x5 + x9) + 0x3ec2e3ed * (x1 + x3 - x6 - x9 + x10) + 0xb5044b50 * (x2 + x4 + x7 + x10 + x11) + 0xa7cdca7d * (x3 - x5 + x8 - x11 - x12) + 0x1f6171f6 * (x12 - x4 - x6 - x9 + x13) = x14 := by
  grind

theorem unsum15 (x0 x1 x2 x3 x4 x5 x6 x7 x8 x9 x10 x11 x12 x13 x14 x15 : W) : 0xb00fdb00 * (x5 - x7 + x10 + x13 + x14) + 0xa0ddfa0f * (x6 - x8 + x11 + x14 - x15) + 0x71f61720 * (x0 + x7 + x9 - x12 + x15) + 0x871a1872 * (x0 - x1 + x8 - x10 + x13) + 0x9a9749aa * (x1 + x2 + x9 - x11 - x14) + 0xf56dff57 * (x3 - x2 + x10 - x12 + x15) + 0xe1f0ce20 * (x4 - x0 - x3 - x11 + x13) + 0xcfc5dcfc * (x1 - x4 - x5 - x12 - x14) + 0x7d3137d3 * (x2 - x5 - x6 + x13 - x15) + 0x196f5197 * (x0 - x3 + x6 - x7 + x14) + 0xb6ab1b6c * (x8 - x1 - x4 - x7 + x15) + 0x308eb309 * (x8 - x0 - x2 - x5 + x9) + 0xd3680d38 * (x1 + x3 - x6 - x9 + x10) + 0xe3430e3 * (x2 + x4 + x7 + x10 + x11) + 0x328a1328 * (x3 - x5 + x8 - x11 - x12) + 0x69b4069b * (x12 - x4 - x6 - x9 + x13) = x15 := by
  grind

theorem sumun0 (w0 w1 w2 w3 w4 w5 w6 w7 w8 w9 w10 w11 w12 w13 w14 w15 : W) : (0xc533dc54 * w0 + 0xc8d60c8d * w1 + 0x64bf964c * w2 + 0x54900549 * w3 + 0xb9a42b9a * w4 + 0x8817c881 * w5 + 0x2303a230 * w6 + 0x2cec82cf * w7 + 0x14265142 * w8 + 0x5886c588 * w9 + 0xf024ff02 * w10 + 0xeed2beed * w11 + 0x5e2455e2 * w12 + 0xa9200a92 * w13 + 0x954e4955 * w14 + 0xaf122af1 * w15) - (0x1b6ab1b7 * w0 + 0x7fd5b7fd * w1 + 0xedd50ee * w2 + 0xf274ef27 * w3 + 0x5044b504 * w4 + 0xe3430e3 * w5 + 0xb0646b06 * w6 + 0xf0ce1f0d * w7 + 0xcfc5dcfc * w8 + 0xa5d26a5d * w9 + 0x328a1328 * w10 + 0xf6c03f6c * w11 + 0xe3ec2e3e * w12 + 0xe4e9de4f * w13 + 0x64167642 * w14 + 0x71f61720 * w15) + (0xcc23acc3 * w0 + 0x29f3729e * w1 + 0x4069b406 * w2 + 0x6ffab6ff * w3 + 0x5bd465bd * w4 + 0xe8377e84 * w5 + 0xfc5dcfc5 * w6 + 0x137d3138 * w7 + 0xd9aebd9b * w8 + 0x793a7794 * w9 + 0xdb00fdaf * w10 + 0x2d4112d4 * w11 + 0xdbaa1db9 * w12 + 0xdff56e00 * w13 + 0xb1b6ab1c * w14 + 0xedd50ede * w15) + (0x6d01a6d0 * w0 + 0xf6171f62 * w1 + 0x7bdef7be * w2 + 0xd3680d37 * w3 + 0xd01a6d02 * w4 + 0x543b7544 * w5 + 0x57891579 * w6 + 0x704f4705 * w7 + 0xb25fcb26 * w8 + 0xdd50edd5 * w9 + 0xd85c7d86 * w10 + 0xd50edd51 * w11 + 0x6b5ad6b6 * w12 + 0xa6d01a6d * w13 + 0x7543b754 * w14 + 0xb5ad6b5b * w15) + (0x1d1181d1 * w0 + 0x96f51970 * w1 + 0xedd50ede * w2 + 0x5a8225a8 * w3 + 0x6ab1b6ab * w4 + 0x49a9749a * w5 + 0x3979e398 * w6 + 0x40152401 * w7 + 0x2f9102f9 * w8 + 0xf6c03f6c * w9 + 0x8f0798f1 * w10 + 0x59d905a * w11 + 0x3ec2e3ed * w12 + 0xb5044b50 * w13 + 0xa7cdca7d * w14 + 0x1f6171f6 * w15) = w0 := by
  grind

theorem sumun1 (w0 w1 w2 w3 w4 w5 w6 w7 w8 w9 w10 w11 w12 w13 w14 w15 : W) : (0x6611d661 * w0 + 0x94f9b950 * w1 + 0xa034da03 * w2 + 0xb7fd5b80 * w3 + 0x2dea32df * w4 + 0xf41bbf42 * w5 + 0x7e2ee7e3 * w6 + 0x89be989c * w7 + 0xecd75ecd * w8 + 0xbc9d3bca * w9 + 0xed807ed8 * w10 + 0x96a0896a * w11 + 0xedd50edd * w12 + 0x6ffab700 * w13 + 0x58db558e * w14 + 0x76ea876f * w15) - (0x1a1871a2 * w0 + 0x6d5636d5 * w1 + 0x8fb0b8fb * w2 + 0x59d905a * w3 + 0x6e53e6e5 * w4 + 0x45099450 * w5 + 0xdc533dc5 * w6 + 0x4afbb4b0 * w7 + 0xb6568b65 * w8 + 0x31e0f31e * w9 + 0x4ef274ef * w10 + 0xeadbfeae * w11 + 0x9b4069b4 * w12 + 0xb3b20b4 * w13 + 0x2dea32df * w14 + 0x4da034da * w15) + (0x4704f470 * w0 + 0xe2455e25 * w1 + 0x739ce73a * w2 + 0x7a3827a4 * w3 + 0x704f4705 * w4 + 0xfcb25fcb * w5 + 0x69b406a * w6 + 0x50edd50f * w7 + 0x171f6172 * w8 + 0x97f2c97f * w9 + 0x89157892 * w10 + 0x7f2c97f3 * w11 + 0x42108422 * w12 + 0xf4704f47 * w13 + 0x5fcb25fc * w14 + 0x21084210 * w15) + (0x1d1181d1 * w0 + 0x96f51970 * w1 + 0xedd50ede * w2 + 0x5a8225a8 * w3 + 0x6ab1b6ab * w4 + 0x49a9749a * w5 + 0x3979e398 * w6 + 0x40152401 * w7 + 0x2f9102f9 * w8 + 0xf6c03f6c * w9 + 0x8f0798f1 * w10 + 0x59d905a * w11 + 0x3ec2e3ed * w12 + 0xb5044b50 * w13 + 0xa7cdca7d * w14 + 0x1f6171f6 * w15) - (0xb00fdb00 * w0 + 0xa0ddfa0f * w1 + 0x71f61720 * w2 + 0x871a1872 * w3 + 0x9a9749aa * w4 + 0xf56dff57 * w5 + 0xe1f0ce20 * w6 + 0xcfc5dcfc * w7 + 0x7d3137d3 * w8 + 0x196f5197 * w9 + 0xb6ab1b6c * w10 + 0x308eb309 * w11 + 0xd3680d38 * w12 + 0xe3430e3 * w13 + 0x328a1328 * w14 + 0x69b4069b * w15) = w1 := by
  grind

theorem sumun2 (w0 w1 w2 w3 w4 w5 w6 w7 w8 w9 w10 w11 w12 w13 w14 w15 : W) : (0x90ae690b * w0 + 0xe989be98 * w1 + 0xe592fe59 * w2 + 0xce1f0ce2 * w3 + 0xa4802a48 * w4 + 0x8bb9f8bc * w5 + 0xb558db55 * w6 + 0xed807ed8 * w7 + 0x611d6612 * w8 + 0x17c8817d * w9 + 0xd95a2d95 * w10 + 0x1621b162 * w11 + 0x15789157 * w12 + 0x9c3e19c4 * w13 + 0x2beed2bf * w14 + 0x8abc48ac * w15) + (0x1b6ab1b7 * w0 + 0x7fd5b7fd * w1 + 0xedd50ee * w2 + 0xf274ef27 * w3 + 0x5044b504 * w4 + 0xe3430e3 * w5 + 0xb0646b06 * w6 + 0xf0ce1f0d * w7 + 0xcfc5dcfc * w8 + 0xa5d26a5d * w9 + 0x328a1328 * w10 + 0xf6c03f6c * w11 + 0xe3ec2e3e * w12 + 0xe4e9de4f * w13 + 0x64167642 * w14 + 0x71f61720 * w15) + (0xaa1dbaa2 * w0 + 0x4da034da * w1 + 0xb5ad6b5b * w2 + 0xdd50edd5 * w3 + 0xa1dbaa1e * w4 + 0xec2e3ec3 * w5 + 0x27a3827a * w6 + 0xe592fe59 * w7 + 0x8abc48ac * w8 + 0x8fb0b8fb * w9 + 0x3680d368 * w10 + 0xfb0b8fb1 * w11 + 0x8c6318c6 * w12 + 0xbaa1dbaa * w13 + 0x3ec2e3ec * w14 + 0xc6318c63 * w15) - (0x646b064 * w0 + 0x57dda57e * w1 + 0x1c13d1c1 * w2 + 0x24ff0250 * w3 + 0x3137d314 * w4 + 0x7b8a67b9 * w5 + 0x6f5196f5 * w6 + 0x93a7793a * w7 + 0x38d0c38d * w8 + 0x66baf66c * w9 + 0xf9102f91 * w10 + 0x387c3388 * w11 + 0x592fe593 * w12 + 0x49fe04a0 * w13 + 0x1524015 * w14 + 0x2c97f2ca * w15) + (0xb00fdb00 * w0 + 0xa0ddfa0f * w1 + 0x71f61720 * w2 + 0x871a1872 * w3 + 0x9a9749aa * w4 + 0xf56dff57 * w5 + 0xe1f0ce20 * w6 + 0xcfc5dcfc * w7 + 0x7d3137d3 * w8 + 0x196f5197 * w9 + 0xb6ab1b6c * w10 + 0x308eb309 * w11 + 0xd3680d38 * w12 + 0xe3430e3 * w13 + 0x328a1328 * w14 + 0x69b4069b * w15) = w2 := by
  grind

theorem sumun3 (w0 w1 w2 w3 w4 w5 w6 w7 w8 w9 w10 w11 w12 w13 w14 w15 : W) : (0x90ae690b * w0 + 0xe989be98 * w1 + 0xe592fe59 * w2 + 0xce1f0ce2 * w3 + 0xa4802a48 * w4 + 0x8bb9f8bc * w5 + 0xb558db55 * w6 + 0xed807ed8 * w7 + 0x611d6612 * w8 + 0x17c8817d * w9 + 0xd95a2d95 * w10 + 0x1621b162 * w11 + 0x15789157 * w12 + 0x9c3e19c4 * w13 + 0x2beed2bf * w14 + 0x8abc48ac * w15) - (0x4ba4d4ba * w0 + 0x2303a231 * w1 + 0xb0b8fb0c * w2 + 0x3729f373 * w3 + 0x871a1872 * w4 + 0x3cc783cc * w5 + 0xecd75ece * w6 + 0x954e4955 * w7 + 0xf024ff02 * w8 + 0xadbfeadc * w9 + 0x25a8225b * w10 + 0xa8cb7a8d * w11 + 0x4069b408 * w12 + 0x6e53e6e5 * w13 + 0x1d6611d6 * w14 + 0xa034da03 * w15) + (0x1a1871a2 * w0 + 0x6d5636d5 * w1 + 0x8fb0b8fb * w2 + 0x59d905a * w3 + 0x6e53e6e5 * w4 + 0x45099450 * w5 + 0xdc533dc5 * w6 + 0x4afbb4b0 * w7 + 0xb6568b65 * w8 + 0x31e0f31e * w9 + 0x4ef274ef * w10 + 0xeadbfeae * w11 + 0x9b4069b4 * w12 + 0xb3b20b4 * w13 + 0x2dea32df * w14 + 0x4da034da * w15) - (0xcc23acc3 * w0 + 0x29f3729e * w1 + 0x4069b406 * w2 + 0x6ffab6ff * w3 + 0x5bd465bd * w4 + 0xe8377e84 * w5 + 0xfc5dcfc5 * w6 + 0x137d3138 * w7 + 0xd9aebd9b * w8 + 0x793a7794 * w9 + 0xdb00fdaf * w10 + 0x2d4112d4 * w11 + 0xdbaa1db9 * w12 + 0xdff56e00 * w13 + 0xb1b6ab1c * w14 + 0xedd50ede * w15) + (0x6d01a6d0 * w0 + 0xf6171f62 * w1 + 0x7bdef7be * w2 + 0xd3680d37 * w3 + 0xd01a6d02 * w4 + 0x543b7544 * w5 + 0x57891579 * w6 + 0x704f4705 * w7 + 0xb25fcb26 * w8 + 0xdd50edd5 * w9 + 0xd85c7d86 * w10 + 0xd50edd51 * w11 + 0x6b5ad6b6 * w12 + 0xa6d01a6d * w13 + 0x7543b754 * w14 + 0xb5ad6b5b * w15) = w3 := by
  grind

theorem sumun4 (w0 w1 w2 w3 w4 w5 w6 w7 w8 w9 w10 w11 w12 w13 w14 w15 : W) : (0x4ba4d4ba * w0 + 0x2303a231 * w1 + 0xb0b8fb0c * w2 + 0x3729f373 * w3 + 0x871a1872 * w4 + 0x3cc783cc * w5 + 0xecd75ece * w6 + 0x954e4955 * w7 + 0xf024ff02 * w8 + 0xadbfeadc * w9 + 0x25a8225b * w10 + 0xa8cb7a8d * w11 + 0x4069b408 * w12 + 0x6e53e6e5 * w13 + 0x1d6611d6 * w14 + 0xa034da03 * w15) + (0x6e53e6e5 * w0 + 0x896a08a * w1 + 0xfb0b8fb1 * w2 + 0xc03f6c04 * w3 + 0xb20b3b21 * w4 + 0x1d6611d6 * w5 + 0x2b9a42ba * w6 + 0x1621b162 * w7 + 0xcbcf1cbd * w8 + 0x51426514 * w9 + 0xbbf41bc0 * w10 + 0xe0f31e0f * w11 + 0xb4069b41 * w12 + 0x807ed808 * w13 + 0xab6ffab7 * w14 + 0xda034da0 * w15) + (0xaa1dbaa2 * w0 + 0x4da034da * w1 + 0xb5ad6b5b * w2 + 0xdd50edd5 * w3 + 0xa1dbaa1e * w4 + 0xec2e3ec3 * w5 + 0x27a3827a * w6 + 0xe592fe59 * w7 + 0x8abc48ac * w8 + 0x8fb0b8fb * w9 + 0x3680d368 * w10 + 0xfb0b8fb1 * w11 + 0x8c6318c6 * w12 + 0xbaa1dbaa * w13 + 0x3ec2e3ec * w14 + 0xc6318c63 * w15) - (0x4704f470 * w0 + 0xe2455e25 * w1 + 0x739ce73a * w2 + 0x7a3827a4 * w3 + 0x704f4705 * w4 + 0xfcb25fcb * w5 + 0x69b406a * w6 + 0x50edd50f * w7 + 0x171f6172 * w8 + 0x97f2c97f * w9 + 0x89157892 * w10 + 0x7f2c97f3 * w11 + 0x42108422 * w12 + 0xf4704f47 * w13 + 0x5fcb25fc * w14 + 0x21084210 * w15) - (0x1d1181d1 * w0 + 0x96f51970 * w1 + 0xedd50ede * w2 + 0x5a8225a8 * w3 + 0x6ab1b6ab * w4 + 0x49a9749a * w5 + 0x3979e398 * w6 + 0x40152401 * w7 + 0x2f9102f9 * w8 + 0xf6c03f6c * w9 + 0x8f0798f1 * w10 + 0x59d905a * w11 + 0x3ec2e3ed * w12 + 0xb5044b50 * w13 + 0xa7cdca7d * w14 + 0x1f6171f6 * w15) = w4 := by
  grind

theorem sumun5 (w0 w1 w2 w3 w4 w5 w6 w7 w8 w9 w10 w11 w12 w13 w14 w15 : W) : (0xf8670f86 * w0 + 0x95a2d95b * w1 + 0x64bf964c * w2 + 0xee299ee3 * w3 + 0xecd75ece * w4 + 0xbb4afbb5 * w5 + 0xbc9d3bca * w6 + 0xc6861c68 * w7 + 0xadbfeadc * w8 + 0x25539255 * w9 + 0x23583236 * w10 + 0xbb9f8bba * w11 + 0x5e2455e3 * w12 + 0xdc533dc5 * w13 + 0xc8817c88 * w14 + 0xaf122af1 * w15) - (0x6e53e6e5 * w0 + 0x896a08a * w1 + 0xfb0b8fb1 * w2 + 0xc03f6c04 * w3 + 0xb20b3b21 * w4 + 0x1d6611d6 * w5 + 0x2b9a42ba * w6 + 0x1621b162 * w7 + 0xcbcf1cbd * w8 + 0x51426514 * w9 + 0xbbf41bc0 * w10 + 0xe0f31e0f * w11 + 0xb4069b41 * w12 + 0x807ed808 * w13 + 0xab6ffab7 * w14 + 0xda034da0 * w15) + (0xcc23acc3 * w0 + 0x29f3729e * w1 + 0x4069b406 * w2 + 0x6ffab6ff * w3 + 0x5bd465bd * w4 + 0xe8377e84 * w5 + 0xfc5dcfc5 * w6 + 0x137d3138 * w7 + 0xd9aebd9b * w8 + 0x793a7794 * w9 + 0xdb00fdaf * w10 + 0x2d4112d4 * w11 + 0xdbaa1db9 * w12 + 0xdff56e00 * w13 + 0xb1b6ab1c * w14 + 0xedd50ede * w15) - (0x646b064 * w0 + 0x57dda57e * w1 + 0x1c13d1c1 * w2 + 0x24ff0250 * w3 + 0x3137d314 * w4 + 0x7b8a67b9 * w5 + 0x6f5196f5 * w6 + 0x93a7793a * w7 + 0x38d0c38d * w8 + 0x66baf66c * w9 + 0xf9102f91 * w10 + 0x387c3388 * w11 + 0x592fe593 * w12 + 0x49fe04a0 * w13 + 0x1524015 * w14 + 0x2c97f2ca * w15) + (0xb00fdb00 * w0 + 0xa0ddfa0f * w1 + 0x71f61720 * w2 + 0x871a1872 * w3 + 0x9a9749aa * w4 + 0xf56dff57 * w5 + 0xe1f0ce20 * w6 + 0xcfc5dcfc * w7 + 0x7d3137d3 * w8 + 0x196f5197 * w9 + 0xb6ab1b6c * w10 + 0x308eb309 * w11 + 0xd3680d38 * w12 + 0xe3430e3 * w13 + 0x328a1328 * w14 + 0x69b4069b * w15) = w5 := by
  grind

theorem sumun6 (w0 w1 w2 w3 w4 w5 w6 w7 w8 w9 w10 w11 w12 w13 w14 w15 : W) : (0x6318c631 * w0 + 0x6b5ad6b6 * w1 + 0x42108421 * w2 + 0x6318c632 * w3 + 0x318c6319 * w4 + 0xef7bdef8 * w5 + 0x21084211 * w6 + 0x94a5294a * w7 + 0x739ce73a * w8 + 0xf7bdef7c * w9 + 0xad6b5ad7 * w10 + 0x7bdef7be * w11 + 0x4a5294a6 * w12 + 0xc6318c63 * w13 + 0xdef7bdef * w14 + 0xa5294a52 * w15) - (0x90ae690b * w0 + 0xe989be98 * w1 + 0xe592fe59 * w2 + 0xce1f0ce2 * w3 + 0xa4802a48 * w4 + 0x8bb9f8bc * w5 + 0xb558db55 * w6 + 0xed807ed8 * w7 + 0x611d6612 * w8 + 0x17c8817d * w9 + 0xd95a2d95 * w10 + 0x1621b162 * w11 + 0x15789157 * w12 + 0x9c3e19c4 * w13 + 0x2beed2bf * w14 + 0x8abc48ac * w15) - (0xf8670f86 * w0 + 0x95a2d95b * w1 + 0x64bf964c * w2 + 0xee299ee3 * w3 + 0xecd75ece * w4 + 0xbb4afbb5 * w5 + 0xbc9d3bca * w6 + 0xc6861c68 * w7 + 0xadbfeadc * w8 + 0x25539255 * w9 + 0x23583236 * w10 + 0xbb9f8bba * w11 + 0x5e2455e3 * w12 + 0xdc533dc5 * w13 + 0xc8817c88 * w14 + 0xaf122af1 * w15) - (0x4704f470 * w0 + 0xe2455e25 * w1 + 0x739ce73a * w2 + 0x7a3827a4 * w3 + 0x704f4705 * w4 + 0xfcb25fcb * w5 + 0x69b406a * w6 + 0x50edd50f * w7 + 0x171f6172 * w8 + 0x97f2c97f * w9 + 0x89157892 * w10 + 0x7f2c97f3 * w11 + 0x42108422 * w12 + 0xf4704f47 * w13 + 0x5fcb25fc * w14 + 0x21084210 * w15) + (0x6d01a6d0 * w0 + 0xf6171f62 * w1 + 0x7bdef7be * w2 + 0xd3680d37 * w3 + 0xd01a6d02 * w4 + 0x543b7544 * w5 + 0x57891579 * w6 + 0x704f4705 * w7 + 0xb25fcb26 * w8 + 0xdd50edd5 * w9 + 0xd85c7d86 * w10 + 0xd50edd51 * w11 + 0x6b5ad6b6 * w12 + 0xa6d01a6d * w13 + 0x7543b754 * w14 + 0xb5ad6b5b * w15) = w6 := by
  grind

theorem sumun7 (w0 w1 w2 w3 w4 w5 w6 w7 w8 w9 w10 w11 w12 w13 w14 w15 : W) : (0x4ba4d4ba * w0 + 0x2303a231 * w1 + 0xb0b8fb0c * w2 + 0x3729f373 * w3 + 0x871a1872 * w4 + 0x3cc783cc * w5 + 0xecd75ece * w6 + 0x954e4955 * w7 + 0xf024ff02 * w8 + 0xadbfeadc * w9 + 0x25a8225b * w10 + 0xa8cb7a8d * w11 + 0x4069b408 * w12 + 0x6e53e6e5 * w13 + 0x1d6611d6 * w14 + 0xa034da03 * w15) - (0x6318c631 * w0 + 0x6b5ad6b6 * w1 + 0x42108421 * w2 + 0x6318c632 * w3 + 0x318c6319 * w4 + 0xef7bdef8 * w5 + 0x21084211 * w6 + 0x94a5294a * w7 + 0x739ce73a * w8 + 0xf7bdef7c * w9 + 0xad6b5ad7 * w10 + 0x7bdef7be * w11 + 0x4a5294a6 * w12 + 0xc6318c63 * w13 + 0xdef7bdef * w14 + 0xa5294a52 * w15) - (0xc533dc54 * w0 + 0xc8d60c8d * w1 + 0x64bf964c * w2 + 0x54900549 * w3 + 0xb9a42b9a * w4 + 0x8817c881 * w5 + 0x2303a230 * w6 + 0x2cec82cf * w7 + 0x14265142 * w8 + 0x5886c588 * w9 + 0xf024ff02 * w10 + 0xeed2beed * w11 + 0x5e2455e2 * w12 + 0xa9200a92 * w13 + 0x954e4955 * w14 + 0xaf122af1 * w15) - (0x646b064 * w0 + 0x57dda57e * w1 + 0x1c13d1c1 * w2 + 0x24ff0250 * w3 + 0x3137d314 * w4 + 0x7b8a67b9 * w5 + 0x6f5196f5 * w6 + 0x93a7793a * w7 + 0x38d0c38d * w8 + 0x66baf66c * w9 + 0xf9102f91 * w10 + 0x387c3388 * w11 + 0x592fe593 * w12 + 0x49fe04a0 * w13 + 0x1524015 * w14 + 0x2c97f2ca * w15) - (0x1d1181d1 * w0 + 0x96f51970 * w1 + 0xedd50ede * w2 + 0x5a8225a8 * w3 + 0x6ab1b6ab * w4 + 0x49a9749a * w5 + 0x3979e398 * w6 + 0x40152401 * w7 + 0x2f9102f9 * w8 + 0xf6c03f6c * w9 + 0x8f0798f1 * w10 + 0x59d905a * w11 + 0x3ec2e3ed * w12 + 0xb5044b50 * w13 + 0xa7cdca7d * w14 + 0x1f6171f6 * w15) = w7 := by
  grind

theorem sumun8 (w0 w1 w2 w3 w4 w5 w6 w7 w8 w9 w10 w11 w12 w13 w14 w15 : W) : (0x6e53e6e5 * w0 + 0x896a08a * w1 + 0xfb0b8fb1 * w2 + 0xc03f6c04 * w3 + 0xb20b3b21 * w4 + 0x1d6611d6 * w5 + 0x2b9a42ba * w6 + 0x1621b162 * w7 + 0xcbcf1cbd * w8 + 0x51426514 * w9 + 0xbbf41bc0 * w10 + 0xe0f31e0f * w11 + 0xb4069b41 * w12 + 0x807ed808 * w13 + 0xab6ffab7 * w14 + 0xda034da0 * w15) - (0xc533dc54 * w0 + 0xc8d60c8d * w1 + 0x64bf964c * w2 + 0x54900549 * w3 + 0xb9a42b9a * w4 + 0x8817c881 * w5 + 0x2303a230 * w6 + 0x2cec82cf * w7 + 0x14265142 * w8 + 0x5886c588 * w9 + 0xf024ff02 * w10 + 0xeed2beed * w11 + 0x5e2455e2 * w12 + 0xa9200a92 * w13 + 0x954e4955 * w14 + 0xaf122af1 * w15) - (0x6611d661 * w0 + 0x94f9b950 * w1 + 0xa034da03 * w2 + 0xb7fd5b80 * w3 + 0x2dea32df * w4 + 0xf41bbf42 * w5 + 0x7e2ee7e3 * w6 + 0x89be989c * w7 + 0xecd75ecd * w8 + 0xbc9d3bca * w9 + 0xed807ed8 * w10 + 0x96a0896a * w11 + 0xedd50edd * w12 + 0x6ffab700 * w13 + 0x58db558e * w14 + 0x76ea876f * w15) + (0x6d01a6d0 * w0 + 0xf6171f62 * w1 + 0x7bdef7be * w2 + 0xd3680d37 * w3 + 0xd01a6d02 * w4 + 0x543b7544 * w5 + 0x57891579 * w6 + 0x704f4705 * w7 + 0xb25fcb26 * w8 + 0xdd50edd5 * w9 + 0xd85c7d86 * w10 + 0xd50edd51 * w11 + 0x6b5ad6b6 * w12 + 0xa6d01a6d * w13 + 0x7543b754 * w14 + 0xb5ad6b5b * w15) - (0xb00fdb00 * w0 + 0xa0ddfa0f * w1 + 0x71f61720 * w2 + 0x871a1872 * w3 + 0x9a9749aa * w4 + 0xf56dff57 * w5 + 0xe1f0ce20 * w6 + 0xcfc5dcfc * w7 + 0x7d3137d3 * w8 + 0x196f5197 * w9 + 0xb6ab1b6c * w10 + 0x308eb309 * w11 + 0xd3680d38 * w12 + 0xe3430e3 * w13 + 0x328a1328 * w14 + 0x69b4069b * w15) = w8 := by
  grind

theorem sumun9 (w0 w1 w2 w3 w4 w5 w6 w7 w8 w9 w10 w11 w12 w13 w14 w15 : W) : (0x90ae690b * w0 + 0xe989be98 * w1 + 0xe592fe59 * w2 + 0xce1f0ce2 * w3 + 0xa4802a48 * w4 + 0x8bb9f8bc * w5 + 0xb558db55 * w6 + 0xed807ed8 * w7 + 0x611d6612 * w8 + 0x17c8817d * w9 + 0xd95a2d95 * w10 + 0x1621b162 * w11 + 0x15789157 * w12 + 0x9c3e19c4 * w13 + 0x2beed2bf * w14 + 0x8abc48ac * w15) - (0xf8670f86 * w0 + 0x95a2d95b * w1 + 0x64bf964c * w2 + 0xee299ee3 * w3 + 0xecd75ece * w4 + 0xbb4afbb5 * w5 + 0xbc9d3bca * w6 + 0xc6861c68 * w7 + 0xadbfeadc * w8 + 0x25539255 * w9 + 0x23583236 * w10 + 0xbb9f8bba * w11 + 0x5e2455e3 * w12 + 0xdc533dc5 * w13 + 0xc8817c88 * w14 + 0xaf122af1 * w15) + (0x6611d661 * w0 + 0x94f9b950 * w1 + 0xa034da03 * w2 + 0xb7fd5b80 * w3 + 0x2dea32df * w4 + 0xf41bbf42 * w5 + 0x7e2ee7e3 * w6 + 0x89be989c * w7 + 0xecd75ecd * w8 + 0xbc9d3bca * w9 + 0xed807ed8 * w10 + 0x96a0896a * w11 + 0xedd50edd * w12 + 0x6ffab700 * w13 + 0x58db558e * w14 + 0x76ea876f * w15) - (0x1b6ab1b7 * w0 + 0x7fd5b7fd * w1 + 0xedd50ee * w2 + 0xf274ef27 * w3 + 0x5044b504 * w4 + 0xe3430e3 * w5 + 0xb0646b06 * w6 + 0xf0ce1f0d * w7 + 0xcfc5dcfc * w8 + 0xa5d26a5d * w9 + 0x328a1328 * w10 + 0xf6c03f6c * w11 + 0xe3ec2e3e * w12 + 0xe4e9de4f * w13 + 0x64167642 * w14 + 0x71f61720 * w15) + (0x1d1181d1 * w0 + 0x96f51970 * w1 + 0xedd50ede * w2 + 0x5a8225a8 * w3 + 0x6ab1b6ab * w4 + 0x49a9749a * w5 + 0x3979e398 * w6 + 0x40152401 * w7 + 0x2f9102f9 * w8 + 0xf6c03f6c * w9 + 0x8f0798f1 * w10 + 0x59d905a * w11 + 0x3ec2e3ed * w12 + 0xb5044b50 * w13 + 0xa7cdca7d * w14 + 0x1f6171f6 * w15) = w9 := by
  grind

theorem sumun10 (w0 w1 w2 w3 w4 w5 w6 w7 w8 w9 w10 w11 w12 w13 w14 w15 : W) : (0x1a1871a2 * w0 + 0x6d5636d5 * w1 + 0x8fb0b8fb * w2 + 0x59d905a * w3 + 0x6e53e6e5 * w4 + 0x45099450 * w5 + 0xdc533dc5 * w6 + 0x4afbb4b0 * w7 + 0xb6568b65 * w8 + 0x31e0f31e * w9 + 0x4ef274ef * w10 + 0xeadbfeae * w11 + 0x9b4069b4 * w12 + 0xb3b20b4 * w13 + 0x2dea32df * w14 + 0x4da034da * w15) - (0x4ba4d4ba * w0 + 0x2303a231 * w1 + 0xb0b8fb0c * w2 + 0x3729f373 * w3 + 0x871a1872 * w4 + 0x3cc783cc * w5 + 0xecd75ece * w6 + 0x954e4955 * w7 + 0xf024ff02 * w8 + 0xadbfeadc * w9 + 0x25a8225b * w10 + 0xa8cb7a8d * w11 + 0x4069b408 * w12 + 0x6e53e6e5 * w13 + 0x1d6611d6 * w14 + 0xa034da03 * w15) - (0x6318c631 * w0 + 0x6b5ad6b6 * w1 + 0x42108421 * w2 + 0x6318c632 * w3 + 0x318c6319 * w4 + 0xef7bdef8 * w5 + 0x21084211 * w6 + 0x94a5294a * w7 + 0x739ce73a * w8 + 0xf7bdef7c * w9 + 0xad6b5ad7 * w10 + 0x7bdef7be * w11 + 0x4a5294a6 * w12 + 0xc6318c63 * w13 + 0xdef7bdef * w14 + 0xa5294a52 * w15) - (0x1b6ab1b7 * w0 + 0x7fd5b7fd * w1 + 0xedd50ee * w2 + 0xf274ef27 * w3 + 0x5044b504 * w4 + 0xe3430e3 * w5 + 0xb0646b06 * w6 + 0xf0ce1f0d * w7 + 0xcfc5dcfc * w8 + 0xa5d26a5d * w9 + 0x328a1328 * w10 + 0xf6c03f6c * w11 + 0xe3ec2e3e * w12 + 0xe4e9de4f * w13 + 0x64167642 * w14 + 0x71f61720 * w15) + (0xb00fdb00 * w0 + 0xa0ddfa0f * w1 + 0x71f61720 * w2 + 0x871a1872 * w3 + 0x9a9749aa * w4 + 0xf56dff57 * w5 + 0xe1f0ce20 * w6 + 0xcfc5dcfc * w7 + 0x7d3137d3 * w8 + 0x196f5197 * w9 + 0xb6ab1b6c * w10 + 0x308eb309 * w11 + 0xd3680d38 * w12 + 0xe3430e3 * w13 + 0x328a1328 * w14 + 0x69b4069b * w15) = w10 := by
  grind

theorem sumun11 (w0 w1 w2 w3 w4 w5 w6 w7 w8 w9 w10 w11 w12 w13 w14 w15 : W) : (0x1a1871a2 * w0 + 0x6d5636d5 * w1 + 0x8fb0b8fb * w2 + 0x59d905a * w3 + 0x6e53e6e5 * w4 + 0x45099450 * w5 + 0xdc533dc5 * w6 + 0x4afbb4b0 * w7 + 0xb6568b65 * w8 + 0x31e0f31e * w9 + 0x4ef274ef * w10 + 0xeadbfeae * w11 + 0x9b4069b4 * w12 + 0xb3b20b4 * w13 + 0x2dea32df * w14 + 0x4da034da * w15) - (0x90ae690b * w0 + 0xe989be98 * w1 + 0xe592fe59 * w2 + 0xce1f0ce2 * w3 + 0xa4802a48 * w4 + 0x8bb9f8bc * w5 + 0xb558db55 * w6 + 0xed807ed8 * w7 + 0x611d6612 * w8 + 0x17c8817d * w9 + 0xd95a2d95 * w10 + 0x1621b162 * w11 + 0x15789157 * w12 + 0x9c3e19c4 * w13 + 0x2beed2bf * w14 + 0x8abc48ac * w15) - (0x6e53e6e5 * w0 + 0x896a08a * w1 + 0xfb0b8fb1 * w2 + 0xc03f6c04 * w3 + 0xb20b3b21 * w4 + 0x1d6611d6 * w5 + 0x2b9a42ba * w6 + 0x1621b162 * w7 + 0xcbcf1cbd * w8 + 0x51426514 * w9 + 0xbbf41bc0 * w10 + 0xe0f31e0f * w11 + 0xb4069b41 * w12 + 0x807ed808 * w13 + 0xab6ffab7 * w14 + 0xda034da0 * w15) - (0xc533dc54 * w0 + 0xc8d60c8d * w1 + 0x64bf964c * w2 + 0x54900549 * w3 + 0xb9a42b9a * w4 + 0x8817c881 * w5 + 0x2303a230 * w6 + 0x2cec82cf * w7 + 0x14265142 * w8 + 0x5886c588 * w9 + 0xf024ff02 * w10 + 0xeed2beed * w11 + 0x5e2455e2 * w12 + 0xa9200a92 * w13 + 0x954e4955 * w14 + 0xaf122af1 * w15) + (0xaa1dbaa2 * w0 + 0x4da034da * w1 + 0xb5ad6b5b * w2 + 0xdd50edd5 * w3 + 0xa1dbaa1e * w4 + 0xec2e3ec3 * w5 + 0x27a3827a * w6 + 0xe592fe59 * w7 + 0x8abc48ac * w8 + 0x8fb0b8fb * w9 + 0x3680d368 * w10 + 0xfb0b8fb1 * w11 + 0x8c6318c6 * w12 + 0xbaa1dbaa * w13 + 0x3ec2e3ec * w14 + 0xc6318c63 * w15) = w11 := by
  grind

theorem sumun12 (w0 w1 w2 w3 w4 w5 w6 w7 w8 w9 w10 w11 w12 w13 w14 w15 : W) : (0x4ba4d4ba * w0 + 0x2303a231 * w1 + 0xb0b8fb0c * w2 + 0x3729f373 * w3 + 0x871a1872 * w4 + 0x3cc783cc * w5 + 0xecd75ece * w6 + 0x954e4955 * w7 + 0xf024ff02 * w8 + 0xadbfeadc * w9 + 0x25a8225b * w10 + 0xa8cb7a8d * w11 + 0x4069b408 * w12 + 0x6e53e6e5 * w13 + 0x1d6611d6 * w14 + 0xa034da03 * w15) + (0xf8670f86 * w0 + 0x95a2d95b * w1 + 0x64bf964c * w2 + 0xee299ee3 * w3 + 0xecd75ece * w4 + 0xbb4afbb5 * w5 + 0xbc9d3bca * w6 + 0xc6861c68 * w7 + 0xadbfeadc * w8 + 0x25539255 * w9 + 0x23583236 * w10 + 0xbb9f8bba * w11 + 0x5e2455e3 * w12 + 0xdc533dc5 * w13 + 0xc8817c88 * w14 + 0xaf122af1 * w15) - (0x6611d661 * w0 + 0x94f9b950 * w1 + 0xa034da03 * w2 + 0xb7fd5b80 * w3 + 0x2dea32df * w4 + 0xf41bbf42 * w5 + 0x7e2ee7e3 * w6 + 0x89be989c * w7 + 0xecd75ecd * w8 + 0xbc9d3bca * w9 + 0xed807ed8 * w10 + 0x96a0896a * w11 + 0xedd50edd * w12 + 0x6ffab700 * w13 + 0x58db558e * w14 + 0x76ea876f * w15) - (0xaa1dbaa2 * w0 + 0x4da034da * w1 + 0xb5ad6b5b * w2 + 0xdd50edd5 * w3 + 0xa1dbaa1e * w4 + 0xec2e3ec3 * w5 + 0x27a3827a * w6 + 0xe592fe59 * w7 + 0x8abc48ac * w8 + 0x8fb0b8fb * w9 + 0x3680d368 * w10 + 0xfb0b8fb1 * w11 + 0x8c6318c6 * w12 + 0xbaa1dbaa * w13 + 0x3ec2e3ec * w14 + 0xc6318c63 * w15) + (0xcc23acc3 * w0 + 0x29f3729e * w1 + 0x4069b406 * w2 + 0x6ffab6ff * w3 + 0x5bd465bd * w4 + 0xe8377e84 * w5 + 0xfc5dcfc5 * w6 + 0x137d3138 * w7 + 0xd9aebd9b * w8 + 0x793a7794 * w9 + 0xdb00fdaf * w10 + 0x2d4112d4 * w11 + 0xdbaa1db9 * w12 + 0xdff56e00 * w13 + 0xb1b6ab1c * w14 + 0xedd50ede * w15) = w12 := by
  grind

theorem sumun13 (w0 w1 w2 w3 w4 w5 w6 w7 w8 w9 w10 w11 w12 w13 w14 w15 : W) : (0x6e53e6e5 * w0 + 0x896a08a * w1 + 0xfb0b8fb1 * w2 + 0xc03f6c04 * w3 + 0xb20b3b21 * w4 + 0x1d6611d6 * w5 + 0x2b9a42ba * w6 + 0x1621b162 * w7 + 0xcbcf1cbd * w8 + 0x51426514 * w9 + 0xbbf41bc0 * w10 + 0xe0f31e0f * w11 + 0xb4069b41 * w12 + 0x807ed808 * w13 + 0xab6ffab7 * w14 + 0xda034da0 * w15) + (0x6318c631 * w0 + 0x6b5ad6b6 * w1 + 0x42108421 * w2 + 0x6318c632 * w3 + 0x318c6319 * w4 + 0xef7bdef8 * w5 + 0x21084211 * w6 + 0x94a5294a * w7 + 0x739ce73a * w8 + 0xf7bdef7c * w9 + 0xad6b5ad7 * w10 + 0x7bdef7be * w11 + 0x4a5294a6 * w12 + 0xc6318c63 * w13 + 0xdef7bdef * w14 + 0xa5294a52 * w15) + (0x1b6ab1b7 * w0 + 0x7fd5b7fd * w1 + 0xedd50ee * w2 + 0xf274ef27 * w3 + 0x5044b504 * w4 + 0xe3430e3 * w5 + 0xb0646b06 * w6 + 0xf0ce1f0d * w7 + 0xcfc5dcfc * w8 + 0xa5d26a5d * w9 + 0x328a1328 * w10 + 0xf6c03f6c * w11 + 0xe3ec2e3e * w12 + 0xe4e9de4f * w13 + 0x64167642 * w14 + 0x71f61720 * w15) + (0xcc23acc3 * w0 + 0x29f3729e * w1 + 0x4069b406 * w2 + 0x6ffab6ff * w3 + 0x5bd465bd * w4 + 0xe8377e84 * w5 + 0xfc5dcfc5 * w6 + 0x137d3138 * w7 + 0xd9aebd9b * w8 + 0x793a7794 * w9 + 0xdb00fdaf * w10 + 0x2d4112d4 * w11 + 0xdbaa1db9 * w12 + 0xdff56e00 * w13 + 0xb1b6ab1c * w14 + 0xedd50ede * w15) + (0x4704f470 * w0 + 0xe2455e25 * w1 + 0x739ce73a * w2 + 0x7a3827a4 * w3 + 0x704f4705 * w4 + 0xfcb25fcb * w5 + 0x69b406a * w6 + 0x50edd50f * w7 + 0x171f6172 * w8 + 0x97f2c97f * w9 + 0x89157892 * w10 + 0x7f2c97f3 * w11 + 0x42108422 * w12 + 0xf4704f47 * w13 + 0x5fcb25fc * w14 + 0x21084210 * w15) = w13 := by
  grind

theorem sumun14 (w0 w1 w2 w3 w4 w5 w6 w7 w8 w9 w10 w11 w12 w13 w14 w15 : W) : (0xf8670f86 * w0 + 0x95a2d95b * w1 + 0x64bf964c * w2 + 0xee299ee3 * w3 + 0xecd75ece * w4 + 0xbb4afbb5 * w5 + 0xbc9d3bca * w6 + 0xc6861c68 * w7 + 0xadbfeadc * w8 + 0x25539255 * w9 + 0x23583236 * w10 + 0xbb9f8bba * w11 + 0x5e2455e3 * w12 + 0xdc533dc5 * w13 + 0xc8817c88 * w14 + 0xaf122af1 * w15) - (0xc533dc54 * w0 + 0xc8d60c8d * w1 + 0x64bf964c * w2 + 0x54900549 * w3 + 0xb9a42b9a * w4 + 0x8817c881 * w5 + 0x2303a230 * w6 + 0x2cec82cf * w7 + 0x14265142 * w8 + 0x5886c588 * w9 + 0xf024ff02 * w10 + 0xeed2beed * w11 + 0x5e2455e2 * w12 + 0xa9200a92 * w13 + 0x954e4955 * w14 + 0xaf122af1 * w15) + (0x1a1871a2 * w0 + 0x6d5636d5 * w1 + 0x8fb0b8fb * w2 + 0x59d905a * w3 + 0x6e53e6e5 * w4 + 0x45099450 * w5 + 0xdc533dc5 * w6 + 0x4afbb4b0 * w7 + 0xb6568b65 * w8 + 0x31e0f31e * w9 + 0x4ef274ef * w10 + 0xeadbfeae * w11 + 0x9b4069b4 * w12 + 0xb3b20b4 * w13 + 0x2dea32df * w14 + 0x4da034da * w15) - (0x4704f470 * w0 + 0xe2455e25 * w1 + 0x739ce73a * w2 + 0x7a3827a4 * w3 + 0x704f4705 * w4 + 0xfcb25fcb * w5 + 0x69b406a * w6 + 0x50edd50f * w7 + 0x171f6172 * w8 + 0x97f2c97f * w9 + 0x89157892 * w10 + 0x7f2c97f3 * w11 + 0x42108422 * w12 + 0xf4704f47 * w13 + 0x5fcb25fc * w14 + 0x21084210 * w15) - (0x646b064 * w0 + 0x57dda57e * w1 + 0x1c13d1c1 * w2 + 0x24ff0250 * w3 + 0x3137d314 * w4 + 0x7b8a67b9 * w5 + 0x6f5196f5 * w6 + 0x93a7793a * w7 + 0x38d0c38d * w8 + 0x66baf66c * w9 + 0xf9102f91 * w10 + 0x387c3388 * w11 + 0x592fe593 * w12 + 0x49fe04a0 * w13 + 0x1524015 * w14 + 0x2c97f2ca * w15) = w14 := by
  grind

theorem sumun15 (w0 w1 w2 w3 w4 w5 w6 w7 w8 w9 w10 w11 w12 w13 w14 w15 : W) : (0x646b064 * w0 + 0x57dda57e * w1 + 0x1c13d1c1 * w2 + 0x24ff0250 * w3 + 0x3137d314 * w4 + 0x7b8a67b9 * w5 + 0x6f5196f5 * w6 + 0x93a7793a * w7 + 0x38d0c38d * w8 + 0x66baf66c * w9 + 0xf9102f91 * w10 + 0x387c3388 * w11 + 0x592fe593 * w12 + 0x49fe04a0 * w13 + 0x1524015 * w14 + 0x2c97f2ca * w15) - (0x6318c631 * w0 + 0x6b5ad6b6 * w1 + 0x42108421 * w2 + 0x6318c632 * w3 + 0x318c6319 * w4 + 0xef7bdef8 * w5 + 0x21084211 * w6 + 0x94a5294a * w7 + 0x739ce73a * w8 + 0xf7bdef7c * w9 + 0xad6b5ad7 * w10 + 0x7bdef7be * w11 + 0x4a5294a6 * w12 + 0xc6318c63 * w13 + 0xdef7bdef * w14 + 0xa5294a52 * w15) - (0x6611d661 * w0 + 0x94f9b950 * w1 + 0xa034da03 * w2 + 0xb7fd5b80 * w3 + 0x2dea32df * w4 + 0xf41bbf42 * w5 + 0x7e2ee7e3 * w6 + 0x89be989c * w7 + 0xecd75ecd * w8 + 0xbc9d3bca * w9 + 0xed807ed8 * w10 + 0x96a0896a * w11 + 0xedd50edd * w12 + 0x6ffab700 * w13 + 0x58db558e * w14 + 0x76ea876f * w15) - (0xaa1dbaa2 * w0 + 0x4da034da * w1 + 0xb5ad6b5b * w2 + 0xdd50edd5 * w3 + 0xa1dbaa1e * w4 + 0xec2e3ec3 * w5 + 0x27a3827a * w6 + 0xe592fe59 * w7 + 0x8abc48ac * w8 + 0x8fb0b8fb * w9 + 0x3680d368 * w10 + 0xfb0b8fb1 * w11 + 0x8c6318c6 * w12 + 0xbaa1dbaa * w13 + 0x3ec2e3ec * w14 + 0xc6318c63 * w15) + (0x6d01a6d0 * w0 + 0xf6171f62 * w1 + 0x7bdef7be * w2 + 0xd3680d37 * w3 + 0xd01a6d02 * w4 + 0x543b7544 * w5 + 0x57891579 * w6 + 0x704f4705 * w7 + 0xb25fcb26 * w8 + 0xdd50edd5 * w9 + 0xd85c7d86 * w10 + 0xd50edd51 * w11 + 0x6b5ad6b6 * w12 + 0xa6d01a6d * w13 + 0x7543b754 * w14 + 0xb5ad6b5b * w15) = w15 := by
  grind

theorem unMix_sums (x : Words) : unMix (sums x) = x := by
  apply Vector.ext
  intro i hi
  interval_cases i
  · exact unsum0 _ _ _ _ _ _ _ _ _ _ _ _ _ _ _ _
  · exact unsum1 _ _ _ _ _ _ _ _ _ _ _ _ _ _ _ _
  · exact unsum2 _ _ _ _ _ _ _ _ _ _ _ _ _ _ _ _
  · exact unsum3 _ _ _ _ _ _ _ _ _ _ _ _ _ _ _ _
  · exact unsum4 _ _ _ _ _ _ _ _ _ _ _ _ _ _ _ _
  · exact unsum5 _ _ _ _ _ _ _ _ _ _ _ _ _ _ _ _
  · exact unsum6 _ _ _ _ _ _ _ _ _ _ _ _ _ _ _ _
  · exact unsum7 _ _ _ _ _ _ _ _ _ _ _ _ _ _ _ _
  · exact unsum8 _ _ _ _ _ _ _ _ _ _ _ _ _ _ _ _
  · exact unsum9 _ _ _ _ _ _ _ _ _ _ _ _ _ _ _ _
  · exact unsum10 _ _ _ _ _ _ _ _ _ _ _ _ _ _ _ _
  · exact unsum11 _ _ _ _ _ _ _ _ _ _ _ _ _ _ _ _
  · exact unsum12 _ _ _ _ _ _ _ _ _ _ _ _ _ _ _ _
  · exact unsum13 _ _ _ _ _ _ _ _ _ _ _ _ _ _ _ _
  · exact unsum14 _ _ _ _ _ _ _ _ _ _ _ _ _ _ _ _
  · exact unsum15 _ _ _ _ _ _ _ _ _ _ _ _ _ _ _ _

theorem sums_unMix (w : Words) : sums (unMix w) = w := by
  apply Vector.ext
  intro i hi
  interval_cases i
  · exact sumun0 _ _ _ _ _ _ _ _ _ _ _ _ _ _ _ _
  · exact sumun1 _ _ _ _ _ _ _ _ _ _ _ _ _ _ _ _
  · exact sumun2 _ _ _ _ _ _ _ _ _ _ _ _ _ _ _ _
  · exact sumun3 _ _ _ _ _ _ _ _ _ _ _ _ _ _ _ _
  · exact sumun4 _ _ _ _ _ _ _ _ _ _ _ _ _ _ _ _
  · exact sumun5 _ _ _ _ _ _ _ _ _ _ _ _ _ _ _ _
  · exact sumun6 _ _ _ _ _ _ _ _ _ _ _ _ _ _ _ _
  · exact sumun7 _ _ _ _ _ _ _ _ _ _ _ _ _ _ _ _
  · exact sumun8 _ _ _ _ _ _ _ _ _ _ _ _ _ _ _ _
  · exact sumun9 _ _ _ _ _ _ _ _ _ _ _ _ _ _ _ _
  · exact sumun10 _ _ _ _ _ _ _ _ _ _ _ _ _ _ _ _
  · exact sumun11 _ _ _ _ _ _ _ _ _ _ _ _ _ _ _ _
  · exact sumun12 _ _ _ _ _ _ _ _ _ _ _ _ _ _ _ _
  · exact sumun13 _ _ _ _ _ _ _ _ _ _ _ _ _ _ _ _
  · exact sumun14 _ _ _ _ _ _ _ _ _ _ _ _ _ _ _ _
  · exact sumun15 _ _ _ _ _ _ _ _ _ _ _ _ _ _ _ _

/-- Word by word xor. -/
def xorW (m h : Words) : Words := Vector.ofFn fun i => m[i] ^^^ h[i]

theorem xorW_get (m h : Words) (i : Nat) (hi : i < 16) : (xorW m h)[i] = m[i] ^^^ h[i] := by
  unfold xorW; rw [Vector.getElem_ofFn]; rfl

theorem xorW_xorW (m h : Words) : xorW (xorW m h) h = m := by
  apply Vector.ext
  intro i hi
  rw [xorW_get, xorW_get, BitVec.xor_assoc, BitVec.xor_self, BitVec.xor_zero]

theorem mix_sums (m h : Words) (i : Fin 16) : mix m h i = (sums (xorW m h))[i] := by
  have e : ∀ k (hk : k < 16), m[k] ^^^ h[k] = (xorW m h)[k] := fun k hk => (xorW_get m h k hk).symm
  obtain ⟨i, hi⟩ := i
  interval_cases i
  · refine (mix0 m h).trans ?_
    simp only [e]
    rfl
  · refine (mix1 m h).trans ?_
    simp only [e]
    rfl
  · refine (mix2 m h).trans ?_
    simp only [e]
    rfl
  · refine (mix3 m h).trans ?_
    simp only [e]
    rfl
  · refine (mix4 m h).trans ?_
    simp only [e]
    rfl
  · refine (mix5 m h).trans ?_
    simp only [e]
    rfl
  · refine (mix6 m h).trans ?_
    simp only [e]
    rfl
  · refine (mix7 m h).trans ?_
    simp only [e]
    rfl
  · refine (mix8 m h).trans ?_
    simp only [e]
    rfl
  · refine (mix9 m h).trans ?_
    simp only [e]
    rfl
  · refine (mix10 m h).trans ?_
    simp only [e]
    rfl
  · refine (mix11 m h).trans ?_
    simp only [e]
    rfl
  · refine (mix12 m h).trans ?_
    simp only [e]
    rfl
  · refine (mix13 m h).trans ?_
    simp only [e]
    rfl
  · refine (mix14 m h).trans ?_
    simp only [e]
    rfl
  · refine (mix15 m h).trans ?_
    simp only [e]
    rfl

/-- The words `f_0(M, H)`. -/
def half (h m : Words) : Words := Vector.ofFn fun i => f0 m h i

/-- The inverse of `half h`. -/
def unHalf (h q : Words) : Words :=
  xorW (unMix (Vector.ofFn fun i => unS ⟨i.val % 5, Nat.mod_lt _ (by decide)⟩ (q[i] - h[i + 1]))) h

theorem half_get (h m : Words) (i : Fin 16) : (half h m)[i] = s (i.val % 5) (sums (xorW m h))[i] + h[i + 1] := by
  unfold half
  rw [Fin.getElem_fin, Vector.getElem_ofFn]
  unfold f0
  rw [mix_sums]

theorem unHalf_half (h m : Words) : unHalf h (half h m) = m := by
  unfold unHalf
  have : (Vector.ofFn fun i : Fin 16 => unS ⟨i.val % 5, Nat.mod_lt _ (by decide)⟩ ((half h m)[i] - h[i + 1])) = sums (xorW m h) := by
    apply Vector.ext
    intro i hi
    rw [Vector.getElem_ofFn, half_get, BitVec.add_sub_cancel]
    exact unS_s ⟨i % 5, Nat.mod_lt _ (by decide)⟩ _
  rw [this, unMix_sums, xorW_xorW]

theorem half_unHalf (h q : Words) : half h (unHalf h q) = q := by
  apply Vector.ext
  intro i hi
  refine (half_get h (unHalf h q) ⟨i, hi⟩).trans ?_
  unfold unHalf
  rw [xorW_xorW, sums_unMix, Fin.getElem_fin, Vector.getElem_ofFn]
  have := s_unS ⟨i % 5, Nat.mod_lt _ (by decide)⟩ (q[(⟨i, hi⟩ : Fin 16)] - h[(⟨i, hi⟩ : Fin 16) + 1])
  dsimp only at this ⊢
  rw [this, BitVec.sub_add_cancel]
  rfl

theorem half_bijective (h : Words) : Function.Bijective (half h) :=
  Function.bijective_iff_has_inverse.mpr ⟨unHalf h, unHalf_half h, half_unHalf h⟩

theorem pipe_half (m h : Words) (q : Vector W 32) : (Vector.ofFn fun i : Fin 16 => (Model.Bmw.pipe m h q)[i.val]) = half h m := by
  apply Vector.ext
  intro i hi
  unfold half
  rw [Vector.getElem_ofFn, Vector.getElem_ofFn, pipe_eq m h q i (by omega)]
  exact Q_low m h ⟨i, hi⟩

end Proofs.Bmw
