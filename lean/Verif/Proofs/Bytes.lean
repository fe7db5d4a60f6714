import Verif.Model.Utils
import Verif.Spec.Bytes
import Verif.Proofs.Res

/-! Little-endian readers and writers. -/

namespace Proofs.Bytes
open Rust Rust.Res Model.Utils Spec

theorem or_shift {a b k : Nat} (h : a < 2 ^ k) : a ||| b <<< k = a + b * 2 ^ k := by
  rw [Nat.or_comm, ← Nat.shiftLeft_add_eq_or_of_lt h, Nat.shiftLeft_eq]; omega

theorem toNat_setWidth_shl (d : U8) {w k : Nat} (h : k + 8 ≤ w) :
    (d.setWidth w <<< k).toNat = d.toNat <<< k := by
  have hd := d.isLt
  rw [BitVec.toNat_shiftLeft, BitVec.toNat_setWidth]
  have h1 : d.toNat % 2 ^ w = d.toNat :=
    Nat.mod_eq_of_lt (lt_of_lt_of_le hd (Nat.pow_le_pow_right (by decide) (by omega)))
  rw [h1, Nat.shiftLeft_eq]
  apply Nat.mod_eq_of_lt
  calc d.toNat * 2 ^ k < 2 ^ 8 * 2 ^ k := by apply Nat.mul_lt_mul_of_pos_right hd; positivity
    _ = 2 ^ (8 + k) := by rw [Nat.pow_add]
    _ ≤ 2 ^ w := Nat.pow_le_pow_right (by decide) (by omega)

theorem read32_cons (d0 d1 d2 d3 : U8) (ds : List U8) :
    read_u32_le (d0 :: d1 :: d2 :: d3 :: ds) = pure (BitVec.ofNat 32 (leNat [d0, d1, d2, d3])) := by
  simp only [read_u32_le, sget, List.getElem?_cons_zero, List.getElem?_cons_succ, pure_bind]
  congr 1
  apply BitVec.eq_of_toNat_eq
  have h0 := d0.isLt; have h1 := d1.isLt; have h2 := d2.isLt; have h3 := d3.isLt
  simp only [BitVec.toNat_or]
  rw [toNat_setWidth_shl d1 (by decide), toNat_setWidth_shl d2 (by decide), toNat_setWidth_shl d3 (by decide),
    BitVec.toNat_setWidth, Nat.mod_eq_of_lt (by omega : d0.toNat < 2 ^ 32)]
  rw [or_shift (k := 8) (by omega), or_shift (k := 16) (by omega), or_shift (k := 24) (by omega)]
  simp only [leNat, BitVec.toNat_ofNat]
  omega

theorem read64_cons (d0 d1 d2 d3 d4 d5 d6 d7 : U8) (ds : List U8) :
    read_u64_le (d0 :: d1 :: d2 :: d3 :: d4 :: d5 :: d6 :: d7 :: ds) =
      pure (BitVec.ofNat 64 (leNat [d0, d1, d2, d3, d4, d5, d6, d7])) := by
  simp only [read_u64_le, sget, List.getElem?_cons_zero, List.getElem?_cons_succ, pure_bind]
  congr 1
  apply BitVec.eq_of_toNat_eq
  have h0 := d0.isLt; have h1 := d1.isLt; have h2 := d2.isLt; have h3 := d3.isLt
  have h4 := d4.isLt; have h5 := d5.isLt; have h6 := d6.isLt; have h7 := d7.isLt
  simp only [BitVec.toNat_or]
  rw [toNat_setWidth_shl d1 (by decide), toNat_setWidth_shl d2 (by decide), toNat_setWidth_shl d3 (by decide),
    toNat_setWidth_shl d4 (by decide), toNat_setWidth_shl d5 (by decide), toNat_setWidth_shl d6 (by decide),
    toNat_setWidth_shl d7 (by decide),
    BitVec.toNat_setWidth, Nat.mod_eq_of_lt (by omega : d0.toNat < 2 ^ 64)]
  rw [or_shift (k := 8) (by omega), or_shift (k := 16) (by omega), or_shift (k := 24) (by omega),
    or_shift (k := 32) (by omega), or_shift (k := 40) (by omega), or_shift (k := 48) (by omega),
    or_shift (k := 56) (by omega)]
  simp only [leNat, BitVec.toNat_ofNat]
  omega

theorem read32_ok {data : List U8} (h : 4 ≤ data.length) :
    read_u32_le data = pure (BitVec.ofNat 32 (leNat (data.take 4))) := by
  match data, h with
  | d0 :: d1 :: d2 :: d3 :: ds, _ => rw [read32_cons]; rfl

theorem read64_ok {data : List U8} (h : 8 ≤ data.length) :
    read_u64_le data = pure (BitVec.ofNat 64 (leNat (data.take 8))) := by
  match data, h with
  | d0 :: d1 :: d2 :: d3 :: d4 :: d5 :: d6 :: d7 :: ds, _ => rw [read64_cons]; rfl

theorem read32_panics {data : List U8} (h : data.length < 4) : (read_u32_le data).Panics := by
  refine ⟨.bounds, ?_⟩
  match data, h with
  | [], _ => rfl
  | [_], _ => rfl
  | [_, _], _ => rfl
  | [_, _, _], _ => rfl

theorem read64_panics {data : List U8} (h : data.length < 8) : (read_u64_le data).Panics := by
  refine ⟨.bounds, ?_⟩
  match data, h with
  | [], _ => rfl
  | [_], _ => rfl
  | [_, _], _ => rfl
  | [_, _, _], _ => rfl
  | [_, _, _, _], _ => rfl
  | [_, _, _, _, _], _ => rfl
  | [_, _, _, _, _, _], _ => rfl
  | [_, _, _, _, _, _, _], _ => rfl

theorem leBytes_length (k n : Nat) : (leBytes k n).length = k := by
  induction k generalizing n with
  | zero => rfl
  | succ k ih => simp [leBytes, ih]

theorem leNat_leBytes (k n : Nat) : leNat (leBytes k n) = n % 256 ^ k := by
  induction k generalizing n with
  | zero => simp [leBytes, leNat, Nat.mod_one]
  | succ k ih =>
    simp only [leBytes, leNat, ih, BitVec.toNat_ofNat]
    rw [show 256 ^ (k + 1) = 256 * 256 ^ k by rw [Nat.pow_succ, Nat.mul_comm], Nat.mod_mul]

theorem leNat_lt (bs : List Byte) : leNat bs < 256 ^ bs.length := by
  induction bs with
  | nil => simp [leNat]
  | cons b bs ih =>
    have := b.isLt
    simp only [leNat, List.length_cons, Nat.pow_succ]
    omega

theorem leBytes_leNat (bs : List Byte) : leBytes bs.length (leNat bs) = bs := by
  induction bs with
  | nil => rfl
  | cons b bs ih =>
    have hb := b.isLt
    simp only [List.length_cons, leBytes, leNat]
    congr 1
    · apply BitVec.eq_of_toNat_eq
      simp only [BitVec.toNat_ofNat]; omega
    · rw [show (b.toNat + 256 * leNat bs) / 256 = leNat bs by omega, ih]

theorem leNat_inj {a b : List Byte} (hl : a.length = b.length) (h : leNat a = leNat b) : a = b := by
  rw [← leBytes_leNat a, ← leBytes_leNat b, hl, h]

theorem ofNat_shiftRight (n k : Nat) : (BitVec.ofNat 8 (n >>> (8 * k))) = BitVec.ofNat 8 (n / 256 ^ k) := by
  rw [Nat.shiftRight_eq_div_pow, Nat.pow_mul]

theorem leBytes_eq_map (k n : Nat) : leBytes k n = (List.range k).map fun i => BitVec.ofNat 8 (n / 256 ^ i) := by
  induction k generalizing n with
  | zero => rfl
  | succ k ih =>
    rw [List.range_succ_eq_map]
    simp only [leBytes, ih, List.map_cons, List.map_map, Nat.pow_zero, Nat.div_one]
    congr 1
    apply List.map_congr_left
    intro i _
    simp only [Function.comp, Nat.pow_succ, Nat.div_div_eq_div_mul, Nat.mul_comm]

theorem toLeBytes64_eq (x : U64) : toLeBytes64 x = leBytes 8 x.toNat := by
  rw [leBytes_eq_map]
  apply List.map_congr_left
  intro i _
  apply BitVec.eq_of_toNat_eq
  simp [Nat.shiftRight_eq_div_pow, Nat.pow_mul]

theorem toLeBytes32_eq (x : U32) : toLeBytes32 x = leBytes 4 x.toNat := by
  rw [leBytes_eq_map]
  apply List.map_congr_left
  intro i _
  apply BitVec.eq_of_toNat_eq
  simp [Nat.shiftRight_eq_div_pow, Nat.pow_mul]

theorem toLeBytes64_length (x : U64) : (toLeBytes64 x).length = 8 := by simp [toLeBytes64]
theorem toLeBytes32_length (x : U32) : (toLeBytes32 x).length = 4 := by simp [toLeBytes32]

theorem slice_ok {s : List U8} {lo hi : Nat} (h : lo ≤ hi) (h' : hi ≤ s.length) :
    slice s lo hi = pure ((s.drop lo).take (hi - lo)) := by
  unfold slice; rw [if_pos ⟨h, h'⟩]

theorem slice_panics {s : List U8} {lo hi : Nat} (h' : s.length < hi) : slice s lo hi = throw .bounds := by
  unfold slice; rw [if_neg (by omega)]

/-- Reading eight bytes out of the middle of a byte string. -/
theorem read64_slice {s : List U8} {lo : Nat} (h : lo + 8 ≤ s.length) :
    (slice s lo (lo + 8) >>= read_u64_le) = pure (BitVec.ofNat 64 (leNat ((s.drop lo).take 8))) := by
  rw [slice_ok (by omega) h, pure_bind, Nat.add_sub_cancel_left, read64_ok (by simp; omega), List.take_take]
  rfl

theorem read32_slice {s : List U8} {lo : Nat} (h : lo + 4 ≤ s.length) :
    (slice s lo (lo + 4) >>= read_u32_le) = pure (BitVec.ofNat 32 (leNat ((s.drop lo).take 4))) := by
  rw [slice_ok (by omega) h, pure_bind, Nat.add_sub_cancel_left, read32_ok (by simp; omega), List.take_take]
  rfl

theorem chunks_length (n : Nat) (bs : List Byte) : (chunks n bs).length = bs.length / n := by simp [chunks]

theorem words64_length (bs : List Byte) : (words64 bs).length = bs.length / 8 := by simp [words64, chunks]

theorem words64_getElem (bs : List Byte) (i : Nat) (h : i < (words64 bs).length) :
    (words64 bs)[i] = BitVec.ofNat 64 (leNat ((bs.drop (8 * i)).take 8)) := by simp [words64, chunks]

end Proofs.Bytes
