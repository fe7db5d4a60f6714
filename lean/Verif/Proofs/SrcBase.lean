import Verif.Source.Attr
import Verif.Source.Crate
import Verif.Source.Semantics
import Verif.Proofs.Res
import Verif.Model.Target

/-! Rules for running the interpreter of `Source.Semantics` on the syntax of the crate. -/

namespace Source
open Rust

attribute [src] eval evalList evalFields exec execBlock execScope place readSteps writeSteps writePlace readPlace
  bindArgs Env.leave asTy getField setField

/-- The widths of `usize` that are considered. -/
class Width (u : Nat) : Prop where
  lo : 32 ≤ u
  hi : u ≤ 64

instance : Width 32 := ⟨by decide, by decide⟩
instance : Width 64 := ⟨by decide, by decide⟩

/-- `x as usize`, as it is kept by the interpreter. -/
def low (u : Nat) (x : BitVec 64) : BitVec 64 := BitVec.ofNat 64 (Model.Target.usz u x)

variable {u : Nat} {p : Profile}

@[src] theorem low_toNat (x : BitVec 64) : (low u x).toNat = Model.Target.usz u x := by
  unfold low Model.Target.usz
  rw [BitVec.toNat_ofNat, Nat.mod_eq_of_lt (lt_of_le_of_lt (Nat.mod_le _ _) x.isLt)]

theorem low_eq [w : Width u] (x : BitVec 64) : (x.setWidth u).setWidth 64 = low u x := by
  apply BitVec.eq_of_toNat_eq
  have h : 2 ^ u ≤ 2 ^ 64 := Nat.pow_le_pow_right (by decide) w.hi
  have h1 : x.toNat % 2 ^ u < 2 ^ u := Nat.mod_lt _ (Nat.two_pow_pos u)
  rw [low_toNat, BitVec.toNat_setWidth, BitVec.toNat_setWidth, Nat.mod_eq_of_lt (a := x.toNat % 2 ^ u) (by omega)]
  rfl

/-- A cast of a value that fits. -/
theorem low_of_lt [w : Width u] (n : Nat) (h : n < 2 ^ u) : low u (BitVec.ofNat 64 n) = BitVec.ofNat 64 n := by
  have h : 2 ^ u ≤ 2 ^ 64 := Nat.pow_le_pow_right (by decide) w.hi
  unfold low Model.Target.usz
  rw [BitVec.toNat_ofNat, Nat.mod_eq_of_lt (a := n) (by omega), Nat.mod_eq_of_lt (by omega)]

theorem two_pow_32_le [w : Width u] : 2 ^ 32 ≤ 2 ^ u := Nat.pow_le_pow_right (by decide) w.lo
theorem two_pow_le_64 [w : Width u] : 2 ^ u ≤ 2 ^ 64 := Nat.pow_le_pow_right (by decide) w.hi

/-- No vector has `2 ^ (u - 1)` bytes. -/
theorem two_maxBytes [w : Width u] : 2 * Model.Target.isizeMax u + 2 = 2 ^ u := by
  obtain ⟨v, rfl⟩ : ∃ v, u = v + 1 := ⟨u - 1, by have := w.lo; omega⟩
  unfold Model.Target.isizeMax
  have := Nat.two_pow_pos v
  rw [Nat.add_sub_cancel, Nat.pow_succ]
  omega

@[src] theorem get_cons (x y : String) (v : Val) (env : Env) :
    Env.get x ((y, v) :: env) = if x = y then pure v else Env.get x env := rfl

@[src] theorem set_cons (x y : String) (v w : Val) (env : Env) :
    Env.set x v ((y, w) :: env) = if x = y then pure ((y, v) :: env) else (Env.set x v env >>= fun e => pure ((y, w) :: e)) := rfl

/-! ## Arithmetic -/

theorem signed_add (a b : BitVec 64) : signed p 64 (a.toInt + b.toInt) = iadd p a b := by
  unfold signed iadd BitVec.saddOverflow
  rw [BitVec.ofInt_add, BitVec.ofInt_toInt, BitVec.ofInt_toInt]
  congr 1
  simp only [Bool.and_eq_true, Bool.or_eq_true, decide_eq_true_eq, eq_iff_iff]
  constructor <;> rintro ⟨h1, h2⟩ <;> refine ⟨h1, ?_⟩ <;> omega

theorem signed_sub (a b : BitVec 64) : signed p 64 (a.toInt - b.toInt) = isub p a b := by
  unfold signed isub BitVec.ssubOverflow
  rw [show a.toInt - b.toInt = a.toInt + -b.toInt by omega, BitVec.ofInt_add, BitVec.ofInt_neg, BitVec.ofInt_toInt, BitVec.ofInt_toInt, BitVec.sub_eq_add_neg]
  congr 1
  simp only [Bool.and_eq_true, Bool.or_eq_true, decide_eq_true_eq, eq_iff_iff]
  constructor <;> rintro ⟨h1, h2⟩ <;> refine ⟨h1, ?_⟩ <;> omega

theorem signed_mul (a b : BitVec 64) : signed p 64 (a.toInt * b.toInt) = imul p a b := by
  unfold signed imul BitVec.smulOverflow
  rw [BitVec.ofInt_mul, BitVec.ofInt_toInt, BitVec.ofInt_toInt]
  congr 1
  simp only [Bool.and_eq_true, Bool.or_eq_true, decide_eq_true_eq, eq_iff_iff]
  constructor <;> rintro ⟨h1, h2⟩ <;> refine ⟨h1, ?_⟩ <;> omega

theorem signed_neg (a : BitVec 64) : signed p 64 (-a.toInt) = ineg p a := by
  unfold signed ineg BitVec.negOverflow
  rw [BitVec.ofInt_neg, BitVec.ofInt_toInt]
  congr 1
  have := a.toInt_lt
  have := a.le_toInt
  simp only [Bool.and_eq_true, beq_iff_eq, eq_iff_iff]
  constructor <;> rintro ⟨h1, h2⟩ <;> refine ⟨h1, ?_⟩ <;> omega

theorem signed_div (a b : BitVec 64) (hb : 0 < b.toInt) : signed p 64 (a.toInt.tdiv b.toInt) = pure (idiv a b) := by
  unfold signed idiv
  have h1 := a.toInt_lt
  have h2 := a.le_toInt
  have h3 : (a.toInt.tdiv b.toInt).natAbs ≤ a.toInt.natAbs := by
    rw [Int.natAbs_tdiv]
    exact Nat.div_le_self _ _
  have h5 : a.toInt ≤ 0 → a.toInt.tdiv b.toInt ≤ 0 := by
    intro h
    have h6 : 0 ≤ (-a.toInt).tdiv b.toInt := Int.tdiv_nonneg (by omega) (by omega)
    rw [Int.neg_tdiv] at h6
    omega
  have h4 : -2 ^ 63 ≤ a.toInt.tdiv b.toInt ∧ a.toInt.tdiv b.toInt < 2 ^ 63 := by
    omega
  rw [if_neg (by simpa using fun _ => h4)]
  congr 1
  apply BitVec.eq_of_toInt_eq
  rw [BitVec.toInt_ofInt, BitVec.toInt_sdiv]
  
theorem unsigned_sub (a b : BitVec 64) : unsigned p 64 ((a.toNat : Int) - b.toNat) = usub p a b := by
  unfold unsigned usub BitVec.usubOverflow
  have : BitVec.ofInt 64 ((a.toNat : Int) - b.toNat) = a - b := by
    rw [Int.sub_eq_add_neg, BitVec.ofInt_add, BitVec.ofInt_neg, BitVec.ofInt_natCast, BitVec.ofInt_natCast, BitVec.ofNat_toNat, BitVec.ofNat_toNat,
      BitVec.setWidth_eq, BitVec.setWidth_eq, BitVec.sub_eq_add_neg]
  rw [this]
  congr 1
  have := a.isLt
  have := b.isLt
  simp only [Bool.and_eq_true, decide_eq_true_eq, eq_iff_iff]
  constructor <;> rintro ⟨h1, h2⟩ <;> refine ⟨h1, ?_⟩ <;> omega

theorem unsigned_lt (n : Nat) (h : n < 2 ^ 64) : unsigned p 64 (n : Int) = pure (BitVec.ofNat 64 n) := by
  unfold unsigned
  rw [if_neg (by omega), BitVec.ofInt_natCast]

theorem unsignedSize_lt [Width u] (n : Nat) (h : n < 2 ^ u) : unsignedSize u p (n : Int) = pure (BitVec.ofNat 64 n) := by
  have h2 := two_pow_le_64 (u := u)
  have h3 : (n : Int) < 2 ^ u := by exact_mod_cast h
  unfold unsignedSize unsigned
  rw [if_neg (by omega), BitVec.ofInt_natCast, pure_bind]
  congr 1
  apply BitVec.eq_of_toNat_eq
  simp only [BitVec.toNat_setWidth, BitVec.toNat_ofNat, Nat.mod_eq_of_lt h]

theorem unsigned_usize [Width u] (a b : Nat) :
    unsignedSize u p ((a : Int) + (b : Int)) = (BitVec.ofNat 64 <$> Model.Target.usizeAdd u p a b) := by
  by_cases h : a + b < 2 ^ u
  · rw [← Int.natCast_add, unsignedSize_lt _ h, Model.Target.usizeAdd, if_pos h]; rfl
  · unfold unsignedSize unsigned Model.Target.usizeAdd
    have h3 : ¬ ((a + b : Nat) : Int) < 2 ^ u := by exact_mod_cast h
    rw [← Int.natCast_add, BitVec.ofInt_natCast, if_neg h]
    by_cases hp : p.checked
    · rw [if_pos ⟨hp, by omega⟩, if_pos hp]; rfl
    · rw [if_neg (fun h => hp h.1), if_neg hp, map_pure, pure_bind]
      congr 1
      apply BitVec.eq_of_toNat_eq
      simp

/-! ## Operators on typed operands and literals -/

@[src] theorem num_u8 (x : BitVec 8) : (Val.u8 x).num = pure (x.toNat : Int) := rfl
@[src] theorem num_u32 (x : BitVec 32) : (Val.u32 x).num = pure (x.toNat : Int) := rfl
@[src] theorem num_u64 (x : BitVec 64) : (Val.u64 x).num = pure (x.toNat : Int) := rfl
@[src] theorem num_usize (x : BitVec 64) : (Val.usize x).num = pure (x.toNat : Int) := rfl
@[src] theorem num_i64 (x : BitVec 64) : (Val.i64 x).num = pure x.toInt := rfl
@[src] theorem num_lit (n : Nat) (h : n < 128) : (Val.lit n).num = pure (n : Int) := by
  rw [Val.num, if_pos (by omega)]

@[src] theorem cast_i64 (x : BitVec 64) : castTo u .i64 (x.toNat : Int) = .i64 x := by
  simp [castTo]
@[src] theorem cast_u64 (x : BitVec 64) : castTo u .u64 (x.toNat : Int) = .u64 x := by
  simp [castTo]
@[src] theorem cast_usize [Width u] (x : BitVec 64) : castTo u .usize (x.toNat : Int) = .usize (low u x) := by
  simp only [castTo, BitVec.ofInt_natCast, BitVec.ofNat_toNat, low_eq]
@[src] theorem cast_i64_int (x : BitVec 64) : castTo u .i64 x.toInt = .i64 x := by
  simp [castTo]
@[src] theorem cast_u64_int (x : BitVec 64) : castTo u .u64 x.toInt = .u64 x := by
  simp [castTo]
@[src] theorem cast_usize_int [w : Width u] (x : BitVec 64) : castTo u .usize x.toInt = .usize (low u x) := by
  have h : BitVec.ofInt u x.toInt = x.setWidth u := by
    rw [← BitVec.signExtend_eq_setWidth_of_le _ w.hi]; rfl
  simp only [castTo, h, low_eq]
@[src] theorem cast_u64_u8 (x : BitVec 8) : castTo u .u64 (x.toNat : Int) = .u64 (x.setWidth 64) := by
  simp [castTo]
@[src] theorem cast_u32_u8 (x : BitVec 8) : castTo u .u32 (x.toNat : Int) = .u32 (x.setWidth 32) := by
  simp [castTo]

@[src] theorem asInt_u8 (x : BitVec 8) : asInt .u8 (.u8 x) = pure (.u8 x) := rfl
@[src] theorem asInt_u32 (x : BitVec 32) : asInt .u32 (.u32 x) = pure (.u32 x) := rfl
@[src] theorem asInt_u64 (x : BitVec 64) : asInt .u64 (.u64 x) = pure (.u64 x) := rfl
@[src] theorem asInt_i64 (x : BitVec 64) : asInt .i64 (.i64 x) = pure (.i64 x) := rfl
@[src] theorem asInt_usize (x : BitVec 64) : asInt .usize (.usize x) = pure (.usize x) := rfl
@[src] theorem asInt_lit (t : IntTy) (n : Int) : asInt t (.lit n) = ofLit t n := rfl

@[src] theorem ofLit_u8 (n : Nat) (h : n < 2 ^ 8) : ofLit .u8 (n : Int) = pure (.u8 (BitVec.ofNat 8 n)) := by
  unfold ofLit
  simp only
  rw [if_pos (by omega), BitVec.ofInt_natCast]
@[src] theorem ofLit_u32 (n : Nat) (h : n < 2 ^ 32) : ofLit .u32 (n : Int) = pure (.u32 (BitVec.ofNat 32 n)) := by
  unfold ofLit
  simp only
  rw [if_pos (by omega), BitVec.ofInt_natCast]
@[src] theorem ofLit_u64 (n : Nat) (h : n < 2 ^ 64) : ofLit .u64 (n : Int) = pure (.u64 (BitVec.ofNat 64 n)) := by
  unfold ofLit
  simp only
  rw [if_pos (by omega), BitVec.ofInt_natCast]
@[src] theorem ofLit_usize (n : Nat) (h : n < 2 ^ 32) : ofLit .usize (n : Int) = pure (.usize (BitVec.ofNat 64 n)) := by
  unfold ofLit
  simp only
  rw [if_pos (by omega), BitVec.ofInt_natCast]
@[src] theorem ofLit_i64 (n : Nat) (h : n < 2 ^ 63) : ofLit .i64 (n : Int) = pure (.i64 (BitVec.ofNat 64 n)) := by
  unfold ofLit
  simp only
  rw [if_pos (by omega), BitVec.ofInt_natCast]
@[src] theorem ofLit_i64_neg (n : Nat) (h : n < 2 ^ 63) : ofLit .i64 (-(n : Int)) = pure (.i64 (-BitVec.ofNat 64 n)) := by
  unfold ofLit
  simp only
  rw [if_pos (by omega), BitVec.ofInt_neg, BitVec.ofInt_natCast]

@[src] theorem likeOld_lit_u8 (x : BitVec 8) (n : Int) : likeOld (.u8 x) (.lit n) = ofLit .u8 n := rfl
@[src] theorem likeOld_lit_u32 (x : BitVec 32) (n : Int) : likeOld (.u32 x) (.lit n) = ofLit .u32 n := rfl
@[src] theorem likeOld_lit_u64 (x : BitVec 64) (n : Int) : likeOld (.u64 x) (.lit n) = ofLit .u64 n := rfl
@[src] theorem likeOld_lit_i64 (x : BitVec 64) (n : Int) : likeOld (.i64 x) (.lit n) = ofLit .i64 n := rfl
@[src] theorem likeOld_lit_usize (x : BitVec 64) (n : Int) : likeOld (.usize x) (.lit n) = ofLit .usize n := rfl
@[src] theorem likeOld_u8 (v : Val) (x : BitVec 8) : likeOld v (.u8 x) = pure (.u8 x) := rfl
@[src] theorem likeOld_u32 (v : Val) (x : BitVec 32) : likeOld v (.u32 x) = pure (.u32 x) := rfl
@[src] theorem likeOld_u64 (v : Val) (x : BitVec 64) : likeOld v (.u64 x) = pure (.u64 x) := rfl
@[src] theorem likeOld_i64 (v : Val) (x : BitVec 64) : likeOld v (.i64 x) = pure (.i64 x) := rfl
@[src] theorem likeOld_usize (v : Val) (x : BitVec 64) : likeOld v (.usize x) = pure (.usize x) := rfl
@[src] theorem likeOld_bytes (v : Val) (x : List U8) : likeOld v (.bytes x) = pure (.bytes x) := rfl
@[src] theorem likeOld_words32 (v : Val) (x : Array U32) : likeOld v (.words32 x) = pure (.words32 x) := rfl
@[src] theorem likeOld_words64 (v : Val) (x : Array U64) : likeOld v (.words64 x) = pure (.words64 x) := rfl
@[src] theorem likeOld_struct (v : Val) (x : List (String × Val)) : likeOld v (.struct x) = pure (.struct x) := rfl

/-- A literal on the right takes the type of the left operand. -/
theorem binOp_lit_right (op : BinOp) (h1 : op ≠ .shl) (h2 : op ≠ .shr) (a : Val) (n : Int) (ha : ∀ m, a ≠ .lit m) :
    binOp u p op a (.lit n) = (likeOld a (.lit n) >>= fun b => sameOp u p op a b) := by
  cases op <;> first | contradiction | (cases a <;> first | exact absurd rfl (ha _) | rfl)

/-- A literal on the left takes the type of the right operand. -/
theorem binOp_lit_left (op : BinOp) (h1 : op ≠ .shl) (h2 : op ≠ .shr) (b : Val) (n : Int) (hb : ∀ m, b ≠ .lit m) :
    binOp u p op (.lit n) b = (likeOld b (.lit n) >>= fun a => sameOp u p op a b) := by
  cases op <;> first | contradiction | (cases b <;> first | exact absurd rfl (hb _) | rfl)

@[src] theorem add_i64 (a b : BitVec 64) : binOp u p .add (.i64 a) (.i64 b) = (iadd p a b >>= fun x => pure (.i64 x)) := by
  rw [← signed_add]; rfl
@[src] theorem sub_i64 (a b : BitVec 64) : binOp u p .sub (.i64 a) (.i64 b) = (isub p a b >>= fun x => pure (.i64 x)) := by
  rw [← signed_sub]; rfl
@[src] theorem mul_i64 (a b : BitVec 64) : binOp u p .mul (.i64 a) (.i64 b) = (imul p a b >>= fun x => pure (.i64 x)) := by
  rw [← signed_mul]; rfl
@[src] theorem neg_i64 (a : BitVec 64) : negate p (.i64 a) = (ineg p a >>= fun x => pure (.i64 x)) := by
  rw [← signed_neg]; rfl
@[src] theorem neg_lit (n : Int) : negate p (.lit n) = pure (.lit (-n)) := rfl
@[src] theorem div_i64 (a b : BitVec 64) (hb : 0 < b.toInt) : binOp u p .div (.i64 a) (.i64 b) = pure (.i64 (idiv a b)) := by
  show signedOp p .i64 .div a b = _
  unfold signedOp exact
  rw [if_neg (by omega)]
  simp only
  rw [signed_div a b hb, pure_bind]
@[src] theorem and_i64 (a b : BitVec 64) : binOp u p .and (.i64 a) (.i64 b) = pure (.i64 (a &&& b)) := rfl
@[src] theorem eq_i64 (a b : BitVec 64) : binOp u p .eq (.i64 a) (.i64 b) = pure (.bool (a = b)) := by
  show (pure (.bool (decide (a.toInt = b.toInt))) : Res Val) = _
  simp only [BitVec.toInt_inj]

@[src] theorem sub_u64 (a b : BitVec 64) : binOp u p .sub (.u64 a) (.u64 b) = (usub p a b >>= fun x => pure (.u64 x)) := by
  rw [← unsigned_sub]; rfl
@[src] theorem and_u64 (a b : BitVec 64) : binOp u p .and (.u64 a) (.u64 b) = pure (.u64 (a &&& b)) := rfl
@[src] theorem or_u64 (a b : BitVec 64) : binOp u p .or (.u64 a) (.u64 b) = pure (.u64 (a ||| b)) := rfl
@[src] theorem xor_u64 (a b : BitVec 64) : binOp u p .xor (.u64 a) (.u64 b) = pure (.u64 (a ^^^ b)) := rfl
@[src] theorem lt_u64 (a b : BitVec 64) : binOp u p .lt (.u64 a) (.u64 b) = pure (.bool (a.toNat < b.toNat)) := rfl
@[src] theorem or_u32 (a b : BitVec 32) : binOp u p .or (.u32 a) (.u32 b) = pure (.u32 (a ||| b)) := rfl
@[src] theorem xor_u32 (a b : BitVec 32) : binOp u p .xor (.u32 a) (.u32 b) = pure (.u32 (a ^^^ b)) := rfl
@[src] theorem and_usize (a b : BitVec 64) : binOp u p .and (.usize a) (.usize b) = pure (.usize (a &&& b)) := rfl
@[src] theorem lt_usize (a b : BitVec 64) : binOp u p .lt (.usize a) (.usize b) = pure (.bool (a.toNat < b.toNat)) := rfl
@[src] theorem add_usize [Width u] (a b : BitVec 64) :
    binOp u p .add (.usize a) (.usize b) = (Model.Target.usizeAdd u p a.toNat b.toNat >>= fun n => pure (.usize (BitVec.ofNat 64 n))) := by
  show (unsignedSize u p ((a.toNat : Int) + b.toNat) >>= fun x => pure (Val.usize x)) = _
  rw [unsigned_usize]
  simp

theorem ofInt_sub_nat {w : Nat} (a b : BitVec w) : BitVec.ofInt w ((a.toNat : Int) - b.toNat) = a - b := by
  rw [Int.sub_eq_add_neg, BitVec.ofInt_add, BitVec.ofInt_neg, BitVec.ofInt_natCast, BitVec.ofInt_natCast,
    BitVec.ofNat_toNat, BitVec.ofNat_toNat, BitVec.setWidth_eq, BitVec.setWidth_eq, BitVec.sub_eq_add_neg]

theorem sub_u8 (a b : BitVec 8) (h : b.toNat ≤ a.toNat) : binOp u p .sub (.u8 a) (.u8 b) = pure (.u8 (a - b)) := by
  show (unsigned p 8 ((a.toNat : Int) - b.toNat) >>= fun x => pure (Val.u8 x)) = _
  unfold unsigned
  rw [if_neg (by omega), ofInt_sub_nat, pure_bind]

theorem sub_u32 (a b : BitVec 32) (h : b.toNat ≤ a.toNat) : binOp u p .sub (.u32 a) (.u32 b) = pure (.u32 (a - b)) := by
  show (unsigned p 32 ((a.toNat : Int) - b.toNat) >>= fun x => pure (Val.u32 x)) = _
  unfold unsigned
  rw [if_neg (by omega), ofInt_sub_nat, pure_bind]

theorem shiftBy_shl {w : Nat} (a : BitVec w) (k : Nat) (h : k < w) : shiftBy p .shl a k = pure (a <<< k) := by
  unfold shiftBy
  rw [if_neg (by omega), Nat.mod_eq_of_lt h]
theorem shiftBy_shr {w : Nat} (a : BitVec w) (k : Nat) (h : k < w) : shiftBy p .shr a k = pure (a >>> k) := by
  unfold shiftBy
  rw [if_neg (by omega), Nat.mod_eq_of_lt h]

theorem places_lit (n : Nat) (h : n < 128) : places (.lit n) = pure n := by
  rw [places, if_pos (by omega), Int.toNat_natCast]

@[src] theorem shl_u64_lit (a : BitVec 64) (n : Nat) (h : n < 64) : binOp u p .shl (.u64 a) (.lit n) = pure (.u64 (a <<< n)) := by
  simp only [binOp, shiftOp, places_lit n (by omega), pure_bind, shiftBy_shl a n h]
@[src] theorem shr_u64_lit (a : BitVec 64) (n : Nat) (h : n < 64) : binOp u p .shr (.u64 a) (.lit n) = pure (.u64 (a >>> n)) := by
  simp only [binOp, shiftOp, places_lit n (by omega), pure_bind, shiftBy_shr a n h]
@[src] theorem shl_u32_lit (a : BitVec 32) (n : Nat) (h : n < 32) : binOp u p .shl (.u32 a) (.lit n) = pure (.u32 (a <<< n)) := by
  simp only [binOp, shiftOp, places_lit n (by omega), pure_bind, shiftBy_shl a n h]
@[src] theorem shr_u32_lit (a : BitVec 32) (n : Nat) (h : n < 32) : binOp u p .shr (.u32 a) (.lit n) = pure (.u32 (a >>> n)) := by
  simp only [binOp, shiftOp, places_lit n (by omega), pure_bind, shiftBy_shr a n h]
theorem shl_u64_u8 (a : BitVec 64) (k : BitVec 8) (h : k.toNat < 64) : binOp u p .shl (.u64 a) (.u8 k) = pure (.u64 (a <<< k.toNat)) := by
  simp only [binOp, shiftOp, places, pure_bind, shiftBy_shl a _ h]
theorem shr_u64_u8 (a : BitVec 64) (k : BitVec 8) (h : k.toNat < 64) : binOp u p .shr (.u64 a) (.u8 k) = pure (.u64 (a >>> k.toNat)) := by
  simp only [binOp, shiftOp, places, pure_bind, shiftBy_shr a _ h]
theorem shl_u32_u32 (a k : BitVec 32) (h : k.toNat < 32) : binOp u p .shl (.u32 a) (.u32 k) = pure (.u32 (a <<< k.toNat)) := by
  simp only [binOp, shiftOp, places, pure_bind, shiftBy_shl a _ h]
theorem shr_u32_u32 (a k : BitVec 32) (h : k.toNat < 32) : binOp u p .shr (.u32 a) (.u32 k) = pure (.u32 (a >>> k.toNat)) := by
  simp only [binOp, shiftOp, places, pure_bind, shiftBy_shr a _ h]

theorem lit_op (op : BinOp) {m n e : Nat} (he : exact op m n = some (e : Int))
    (h : m < 128 ∧ n < 128 ∨ m ≤ e ∧ n ≤ e) : binOp u p op (.lit m) (.lit n) = pure (.lit e) := by
  have ho : openOp m n e = true := by
    unfold openOp
    exact decide_eq_true ⟨by omega, by omega, by omega, by omega⟩
  have hb : binOp u p op (.lit m) (.lit n) = match exact op m n with
      | some e => if openOp m n e then pure (.lit e) else stuck
      | none => stuck := by
    cases op <;> rfl
  rw [hb, he]
  exact if_pos ho

@[src] theorem lit_add (m n : Nat) : binOp u p .add (.lit m) (.lit n) = pure (.lit ((m + n : Nat) : Int)) :=
  lit_op .add (by rw [exact, Int.natCast_add]) (by omega)
@[src] theorem lit_mul (m n : Nat) (h : m ≤ m * n) (h' : n ≤ m * n) :
    binOp u p .mul (.lit m) (.lit n) = pure (.lit ((m * n : Nat) : Int)) :=
  lit_op .mul (by rw [exact, Int.natCast_mul]) (.inr ⟨h, h'⟩)
@[src] theorem lit_mul_small (m n : Nat) (h : m < 128) (h' : n < 128) :
    binOp u p .mul (.lit m) (.lit n) = pure (.lit ((m * n : Nat) : Int)) :=
  lit_op .mul (by rw [exact, Int.natCast_mul]) (.inl ⟨h, h'⟩)
@[src] theorem lit_sub (m n : Nat) (h : n ≤ m) (h' : m < 128) : binOp u p .sub (.lit m) (.lit n) = pure (.lit ((m - n : Nat) : Int)) :=
  lit_op .sub (by rw [exact, Int.ofNat_sub h]) (.inl ⟨h', by omega⟩)


section literals
variable (n : Nat)
@[src] theorem add_i64_lit (a : BitVec 64) (h : n < 2 ^ 63) :
    binOp u p .add (.i64 a) (.lit n) = binOp u p .add (.i64 a) (.i64 (BitVec.ofNat 64 n)) := by
  rw [binOp_lit_right _ (by decide) (by decide) _ _ (by simp), likeOld_lit_i64, ofLit_i64 n h, pure_bind]; rfl
@[src] theorem sub_i64_lit (a : BitVec 64) (h : n < 2 ^ 63) :
    binOp u p .sub (.i64 a) (.lit n) = binOp u p .sub (.i64 a) (.i64 (BitVec.ofNat 64 n)) := by
  rw [binOp_lit_right _ (by decide) (by decide) _ _ (by simp), likeOld_lit_i64, ofLit_i64 n h, pure_bind]; rfl
@[src] theorem mul_i64_lit (a : BitVec 64) (h : n < 2 ^ 63) :
    binOp u p .mul (.i64 a) (.lit n) = binOp u p .mul (.i64 a) (.i64 (BitVec.ofNat 64 n)) := by
  rw [binOp_lit_right _ (by decide) (by decide) _ _ (by simp), likeOld_lit_i64, ofLit_i64 n h, pure_bind]; rfl
@[src] theorem div_i64_lit (a : BitVec 64) (h : n < 2 ^ 63) :
    binOp u p .div (.i64 a) (.lit n) = binOp u p .div (.i64 a) (.i64 (BitVec.ofNat 64 n)) := by
  rw [binOp_lit_right _ (by decide) (by decide) _ _ (by simp), likeOld_lit_i64, ofLit_i64 n h, pure_bind]; rfl
@[src] theorem eq_i64_lit (a : BitVec 64) (h : n < 2 ^ 63) :
    binOp u p .eq (.i64 a) (.lit n) = binOp u p .eq (.i64 a) (.i64 (BitVec.ofNat 64 n)) := by
  rw [binOp_lit_right _ (by decide) (by decide) _ _ (by simp), likeOld_lit_i64, ofLit_i64 n h, pure_bind]; rfl
@[src] theorem sub_u64_lit (a : BitVec 64) (h : n < 2 ^ 64) :
    binOp u p .sub (.u64 a) (.lit n) = binOp u p .sub (.u64 a) (.u64 (BitVec.ofNat 64 n)) := by
  rw [binOp_lit_right _ (by decide) (by decide) _ _ (by simp), likeOld_lit_u64, ofLit_u64 n h, pure_bind]; rfl
@[src] theorem and_u64_lit (a : BitVec 64) (h : n < 2 ^ 64) :
    binOp u p .and (.u64 a) (.lit n) = binOp u p .and (.u64 a) (.u64 (BitVec.ofNat 64 n)) := by
  rw [binOp_lit_right _ (by decide) (by decide) _ _ (by simp), likeOld_lit_u64, ofLit_u64 n h, pure_bind]; rfl
@[src] theorem xor_u64_lit (a : BitVec 64) (h : n < 2 ^ 64) :
    binOp u p .xor (.u64 a) (.lit n) = binOp u p .xor (.u64 a) (.u64 (BitVec.ofNat 64 n)) := by
  rw [binOp_lit_right _ (by decide) (by decide) _ _ (by simp), likeOld_lit_u64, ofLit_u64 n h, pure_bind]; rfl
@[src] theorem lt_u64_lit (a : BitVec 64) (h : n < 2 ^ 64) :
    binOp u p .lt (.u64 a) (.lit n) = binOp u p .lt (.u64 a) (.u64 (BitVec.ofNat 64 n)) := by
  rw [binOp_lit_right _ (by decide) (by decide) _ _ (by simp), likeOld_lit_u64, ofLit_u64 n h, pure_bind]; rfl
@[src] theorem rem_u64_lit (a : BitVec 64) (h : n < 2 ^ 64) :
    binOp u p .rem (.u64 a) (.lit n) = binOp u p .rem (.u64 a) (.u64 (BitVec.ofNat 64 n)) := by
  rw [binOp_lit_right _ (by decide) (by decide) _ _ (by simp), likeOld_lit_u64, ofLit_u64 n h, pure_bind]; rfl
@[src] theorem eq_u64_lit (a : BitVec 64) (h : n < 2 ^ 64) :
    binOp u p .eq (.u64 a) (.lit n) = binOp u p .eq (.u64 a) (.u64 (BitVec.ofNat 64 n)) := by
  rw [binOp_lit_right _ (by decide) (by decide) _ _ (by simp), likeOld_lit_u64, ofLit_u64 n h, pure_bind]; rfl
@[src] theorem div_u64_lit (a : BitVec 64) (h : n < 2 ^ 64) :
    binOp u p .div (.u64 a) (.lit n) = binOp u p .div (.u64 a) (.u64 (BitVec.ofNat 64 n)) := by
  rw [binOp_lit_right _ (by decide) (by decide) _ _ (by simp), likeOld_lit_u64, ofLit_u64 n h, pure_bind]; rfl
@[src] theorem add_usize_lit (a : BitVec 64) (h : n < 2 ^ 32) :
    binOp u p .add (.usize a) (.lit n) = binOp u p .add (.usize a) (.usize (BitVec.ofNat 64 n)) := by
  rw [binOp_lit_right _ (by decide) (by decide) _ _ (by simp), likeOld_lit_usize, ofLit_usize n h, pure_bind]; rfl
@[src] theorem and_usize_lit (a : BitVec 64) (h : n < 2 ^ 32) :
    binOp u p .and (.usize a) (.lit n) = binOp u p .and (.usize a) (.usize (BitVec.ofNat 64 n)) := by
  rw [binOp_lit_right _ (by decide) (by decide) _ _ (by simp), likeOld_lit_usize, ofLit_usize n h, pure_bind]; rfl
@[src] theorem mul_usize_lit (a : BitVec 64) (h : n < 2 ^ 32) :
    binOp u p .mul (.usize a) (.lit n) = binOp u p .mul (.usize a) (.usize (BitVec.ofNat 64 n)) := by
  rw [binOp_lit_right _ (by decide) (by decide) _ _ (by simp), likeOld_lit_usize, ofLit_usize n h, pure_bind]; rfl
@[src] theorem div_usize_lit (a : BitVec 64) (h : n < 2 ^ 32) :
    binOp u p .div (.usize a) (.lit n) = binOp u p .div (.usize a) (.usize (BitVec.ofNat 64 n)) := by
  rw [binOp_lit_right _ (by decide) (by decide) _ _ (by simp), likeOld_lit_usize, ofLit_usize n h, pure_bind]; rfl
@[src] theorem lt_usize_lit (a : BitVec 64) (h : n < 2 ^ 32) :
    binOp u p .lt (.usize a) (.lit n) = binOp u p .lt (.usize a) (.usize (BitVec.ofNat 64 n)) := by
  rw [binOp_lit_right _ (by decide) (by decide) _ _ (by simp), likeOld_lit_usize, ofLit_usize n h, pure_bind]; rfl
@[src] theorem xor_u32_lit (a : BitVec 32) (h : n < 2 ^ 32) :
    binOp u p .xor (.u32 a) (.lit n) = binOp u p .xor (.u32 a) (.u32 (BitVec.ofNat 32 n)) := by
  rw [binOp_lit_right _ (by decide) (by decide) _ _ (by simp), likeOld_lit_u32, ofLit_u32 n h, pure_bind]; rfl
@[src] theorem sub_lit_u8 (a : BitVec 8) (h : n < 2 ^ 8) :
    binOp u p .sub (.lit n) (.u8 a) = binOp u p .sub (.u8 (BitVec.ofNat 8 n)) (.u8 a) := by
  rw [binOp_lit_left _ (by decide) (by decide) _ _ (by simp), likeOld_lit_u8, ofLit_u8 n h, pure_bind]; rfl
@[src] theorem sub_lit_u32 (a : BitVec 32) (h : n < 2 ^ 32) :
    binOp u p .sub (.lit n) (.u32 a) = binOp u p .sub (.u32 (BitVec.ofNat 32 n)) (.u32 a) := by
  rw [binOp_lit_left _ (by decide) (by decide) _ _ (by simp), likeOld_lit_u32, ofLit_u32 n h, pure_bind]; rfl
@[src] theorem mul_lit_usize (a : BitVec 64) (h : n < 2 ^ 32) :
    binOp u p .mul (.lit n) (.usize a) = binOp u p .mul (.usize (BitVec.ofNat 64 n)) (.usize a) := by
  rw [binOp_lit_left _ (by decide) (by decide) _ _ (by simp), likeOld_lit_usize, ofLit_usize n h, pure_bind]; rfl
@[src] theorem lt_lit_usize (a : BitVec 64) (h : n < 2 ^ 32) :
    binOp u p .lt (.lit n) (.usize a) = binOp u p .lt (.usize (BitVec.ofNat 64 n)) (.usize a) := by
  rw [binOp_lit_left _ (by decide) (by decide) _ _ (by simp), likeOld_lit_usize, ofLit_usize n h, pure_bind]; rfl
end literals

@[src] theorem listed_nil : listed (some (.vec .u8)) [] = pure (.bytes []) := rfl

/-- The words that a value of type `u64` or a literal stand for. -/
def toWord64 (x : Val) : Res U64 := do
  match (← asInt .u64 x) with
  | .u64 b => pure b
  | _ => stuck

@[src] theorem toWord64_u64 (x : U64) : toWord64 (.u64 x) = pure x := rfl
@[src] theorem toWord64_lit (n : Nat) (h : n < 2 ^ 64) : toWord64 (.lit n) = pure (BitVec.ofNat 64 n) := by
  unfold toWord64
  rw [asInt_lit, ofLit_u64 n h, pure_bind]

@[src] theorem listed_u64 (n : Nat) (xs : List Val) :
    listed (some (.array .u64 n)) xs = (xs.mapM toWord64 >>= fun ys => pure (.words64 ys.toArray)) := rfl

/-- The words that a value of type `u32` or a literal stand for. -/
def toWord32 (x : Val) : Res U32 := do
  match (← asInt .u32 x) with
  | .u32 b => pure b
  | _ => stuck

@[src] theorem toWord32_u32 (x : U32) : toWord32 (.u32 x) = pure x := rfl
@[src] theorem toWord32_lit (n : Nat) (h : n < 2 ^ 32) : toWord32 (.lit n) = pure (BitVec.ofNat 32 n) := by
  unfold toWord32
  rw [asInt_lit, ofLit_u32 n h, pure_bind]

@[src] theorem listed_u32 (n : Nat) (xs : List Val) :
    listed (some (.array .u32 n)) xs = (xs.mapM toWord32 >>= fun ys => pure (.words32 ys.toArray)) := rfl

attribute [src] List.mapM_cons List.mapM_nil

@[src] theorem item_bytes (xs : List U8) (i : Nat) : item (.bytes xs) i = (sget xs i >>= fun x => pure (.u8 x)) := rfl
@[src] theorem item_words32 (xs : Array U32) (i : Nat) : item (.words32 xs) i = (vget xs i >>= fun x => pure (.u32 x)) := rfl
@[src] theorem item_words64 (xs : Array U64) (i : Nat) : item (.words64 xs) i = (vget xs i >>= fun x => pure (.u64 x)) := rfl

@[src] theorem setItem_words32 (xs : Array U32) (i : Nat) (x : U32) :
    setItem (.words32 xs) i (.u32 x) = (vset xs i x >>= fun ys => pure (.words32 ys)) := rfl
@[src] theorem setItem_words64 (xs : Array U64) (i : Nat) (x : U64) :
    setItem (.words64 xs) i (.u64 x) = (vset xs i x >>= fun ys => pure (.words64 ys)) := rfl

@[src] theorem position_usize (x : BitVec 64) : position (.usize x) = pure x.toNat := rfl
@[src] theorem position_lit (n : Nat) (h : n < 2 ^ 32) : position (.lit (n : Int)) = pure n := by
  rw [position, if_pos (by omega), Int.toNat_natCast]

@[src] theorem wrapping_add_u64 (x y : U64) : applyMethod "wrapping_add" (.u64 x) [.u64 y] = pure (.u64 (x + y)) := rfl
@[src] theorem wrapping_add_u32 (x y : U32) : applyMethod "wrapping_add" (.u32 x) [.u32 y] = pure (.u32 (x + y)) := rfl
@[src] theorem wrapping_sub_u32 (x y : U32) : applyMethod "wrapping_sub" (.u32 x) [.u32 y] = pure (.u32 (x - y)) := rfl
@[src] theorem wrapping_sub_i64 (x y : I64) : applyMethod "wrapping_sub" (.i64 x) [.i64 y] = pure (.i64 (x - y)) := rfl
@[src] theorem to_le_bytes_u32 (x : U32) : applyMethod "to_le_bytes" (.u32 x) [] = pure (.bytes (toLeBytes32 x)) := rfl
@[src] theorem to_le_bytes_u64 (x : U64) : applyMethod "to_le_bytes" (.u64 x) [] = pure (.bytes (toLeBytes64 x)) := rfl
@[src] theorem len_bytes (xs : List U8) : applyMethod "len" (.bytes xs) [] = pure (.usize (BitVec.ofNat 64 xs.length)) := rfl
@[src] theorem clone_bytes (xs : List U8) : applyMethod "clone" (.bytes xs) [] = pure (.bytes xs) := rfl
@[src] theorem to_vec_bytes (xs : List U8) : applyMethod "to_vec" (.bytes xs) [] = pure (.bytes xs) := rfl
@[src] theorem to_vec_words64 (xs : Array U64) : applyMethod "to_vec" (.words64 xs) [] = pure (.words64 xs) := rfl

/-! ## Calls -/

/-- The context in which the functions of the crate run. -/
abbrev ctx (ext : String → Option (List U8 → List U8)) (u : Nat) (p : Profile) (d : Nat) : Ctx :=
  { u, p, call := call crate ext u p d }

variable {ext : String → Option (List U8 → List U8)} {d : Nat}

/-- A call of a function of the crate. -/
theorem call_fn (name : String) (f : Fn) (args : List Val) (h : crate.find? (·.name = name) = some f) :
    call crate ext u p (d + 1) name args = runFn (ctx ext u p d) f args := by
  simp only [call, h]

@[src] theorem vget_vec {α : Type} {n : Nat} (v : Vector α n) (i : Nat) (h : i < n) : vget v.toArray i = pure v[i] := by
  simp [vget, h]

@[src] theorem vset_vec {α : Type} {n : Nat} (v : Vector α n) (i : Nat) (x : α) (h : i < n) :
    vset v.toArray i x = pure (v.set i x).toArray := by
  simp [vset, h]

/-- Runs the interpreter as far as the rules in `src` and the given ones go. -/
syntax "run_src" ("[" Lean.Parser.Tactic.simpLemma,* "]")? : tactic

macro_rules
  | `(tactic| run_src) => `(tactic| run_src [])
  | `(tactic| run_src [$ls,*]) => `(tactic| simp only [src, pure_bind, bind_assoc, String.reduceEq, ↓reduceIte,
    Nat.reducePow, Nat.reduceLT, Nat.reduceLeDiff, Nat.reduceMul, Nat.reduceAdd, Nat.reduceSub, BitVec.reduceToInt,
    Int.reduceLT, List.isEmpty_nil, List.isEmpty_cons, List.nil_append, List.cons_append, $ls,*])

end Source
