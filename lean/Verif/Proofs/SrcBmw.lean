import Verif.Model.Bmw
import Verif.Proofs.SrcCube

/-! The source of `bmw` computes what `Model.Bmw` says. -/

set_option linter.unusedSectionVars false

namespace Source.Bmw
open Rust Model.Bmw Model.Utils

variable {u : Nat} [Width u] {p : Profile} {ext : String → Option (List U8 → List U8)} {d : Nat} {cx : Ctx}

set_option maxRecDepth 10000

/-- The state as a value. -/
def val (b : Bmw) : Val :=
  .struct [("m", .words32 b.m.toArray), ("h", .words32 b.h.toArray), ("h2", .words32 b.h2.toArray), ("q", .words32 b.q.toArray)]

theorem call_INITVAL : call crate ext u p (d + 1) "bmw::INITVAL" [] = pure (.words32 INITVAL.toArray) := by
  rw [call_fn "bmw::INITVAL" bmw.INITVAL _ (by rfl)]
  run_src [runFn, bmw.INITVAL]
  rfl

theorem call_FINAL : call crate ext u p (d + 1) "bmw::FINAL" [] = pure (.words32 FINAL.toArray) := by
  rw [call_fn "bmw::FINAL" bmw.FINAL _ (by rfl)]
  run_src [runFn, bmw.FINAL]
  rfl

theorem call_circular_left (x : U32) (n : Nat) (h0 : 0 < n) (h : n < 32) :
    call crate ext u p (d + 1) "bmw::circular_left" [.u32 x, .lit n] = pure (.u32 (circular_left x n)) := by
  rw [call_fn "bmw::circular_left" bmw.circular_left _ (by rfl)]
  have hc : (BitVec.ofNat 32 n).toNat = n := by simp; omega
  have hc' : (BitVec.ofNat 32 32 - BitVec.ofNat 32 n).toNat = 32 - n := by rw [BitVec.toNat_sub, hc]; simp; omega
  run_src [runFn, bmw.circular_left, ofLit_u32 n (by omega)]
  rw [shl_u32_u32 x _ (by omega), sub_u32 _ _ (by rw [hc]; simp; omega), pure_bind, pure_bind, shr_u32_u32 x _ (by omega), hc, hc']
  rfl

theorem wrapping_add_lit (x : U32) (n : Nat) (h : n < 2 ^ 32) :
    applyMethod "wrapping_add" (.u32 x) [.lit n] = pure (.u32 (x + BitVec.ofNat 32 n)) := by
  simp only [applyMethod, asInt, ofLit_u32 n h, pure_bind]

theorem call_new : call crate ext u p (d + 2) "bmw::new" [] = pure (val new) := by
  rw [call_fn "bmw::new" bmw.new _ (by rfl)]
  run_src [runFn, bmw.new, call_INITVAL]
  rfl

/-- The variables of `compress` before its first assignment to `h`. -/
def qEnv (b : Val) (m h : Vector U32 16) (q : Vector U32 32) : Env :=
  [("q", .words32 q.toArray), ("h", .words32 h.toArray), ("b", b), ("m", .words32 m.toArray)]

/-- The variables of `compress` afterwards. -/
def hEnv (b : Val) (m : Vector U32 16) (q : Vector U32 32) (xl xh : U32) (h : Vector U32 16) : Env :=
  ("xh", .u32 xh) :: ("xl", .u32 xl) :: qEnv b m h q

theorem exec_q0 (b : Val) (m h : Vector U32 16) (q : Vector U32 32) :
    execBlock (ctx ext u p (d + 1)) (bmw.compress.body.drop 2) (qEnv b m h q) =
    execBlock (ctx ext u p (d + 1)) (bmw.compress.body.drop 3) (qEnv b m h (q0 m h q)) := by
  rw [show bmw.compress.body.drop 2 = _ :: bmw.compress.body.drop 3 from rfl, execBlock]
  generalize bmw.compress.body.drop 3 = rest
  run_src [qEnv, call_circular_left, wrapping_add_lit]
  rfl

theorem exec_q1 (b : Val) (m h : Vector U32 16) (q : Vector U32 32) :
    execBlock (ctx ext u p (d + 1)) (bmw.compress.body.drop 3) (qEnv b m h q) =
    execBlock (ctx ext u p (d + 1)) (bmw.compress.body.drop 4) (qEnv b m h (q1 m h q)) := by
  rw [show bmw.compress.body.drop 3 = _ :: bmw.compress.body.drop 4 from rfl, execBlock]
  generalize bmw.compress.body.drop 4 = rest
  run_src [qEnv, call_circular_left, wrapping_add_lit]
  rfl

theorem exec_q2 (b : Val) (m h : Vector U32 16) (q : Vector U32 32) :
    execBlock (ctx ext u p (d + 1)) (bmw.compress.body.drop 4) (qEnv b m h q) =
    execBlock (ctx ext u p (d + 1)) (bmw.compress.body.drop 5) (qEnv b m h (q2 m h q)) := by
  rw [show bmw.compress.body.drop 4 = _ :: bmw.compress.body.drop 5 from rfl, execBlock]
  generalize bmw.compress.body.drop 5 = rest
  run_src [qEnv, call_circular_left, wrapping_add_lit]
  rfl

theorem exec_q3 (b : Val) (m h : Vector U32 16) (q : Vector U32 32) :
    execBlock (ctx ext u p (d + 1)) (bmw.compress.body.drop 5) (qEnv b m h q) =
    execBlock (ctx ext u p (d + 1)) (bmw.compress.body.drop 6) (qEnv b m h (q3 m h q)) := by
  rw [show bmw.compress.body.drop 5 = _ :: bmw.compress.body.drop 6 from rfl, execBlock]
  generalize bmw.compress.body.drop 6 = rest
  run_src [qEnv, call_circular_left, wrapping_add_lit]
  rfl

theorem exec_q4 (b : Val) (m h : Vector U32 16) (q : Vector U32 32) :
    execBlock (ctx ext u p (d + 1)) (bmw.compress.body.drop 6) (qEnv b m h q) =
    execBlock (ctx ext u p (d + 1)) (bmw.compress.body.drop 7) (qEnv b m h (q4 m h q)) := by
  rw [show bmw.compress.body.drop 6 = _ :: bmw.compress.body.drop 7 from rfl, execBlock]
  generalize bmw.compress.body.drop 7 = rest
  run_src [qEnv, call_circular_left, wrapping_add_lit]
  rfl

theorem exec_q5 (b : Val) (m h : Vector U32 16) (q : Vector U32 32) :
    execBlock (ctx ext u p (d + 1)) (bmw.compress.body.drop 7) (qEnv b m h q) =
    execBlock (ctx ext u p (d + 1)) (bmw.compress.body.drop 8) (qEnv b m h (q5 m h q)) := by
  rw [show bmw.compress.body.drop 7 = _ :: bmw.compress.body.drop 8 from rfl, execBlock]
  generalize bmw.compress.body.drop 8 = rest
  run_src [qEnv, call_circular_left, wrapping_add_lit]
  rfl

theorem exec_q6 (b : Val) (m h : Vector U32 16) (q : Vector U32 32) :
    execBlock (ctx ext u p (d + 1)) (bmw.compress.body.drop 8) (qEnv b m h q) =
    execBlock (ctx ext u p (d + 1)) (bmw.compress.body.drop 9) (qEnv b m h (q6 m h q)) := by
  rw [show bmw.compress.body.drop 8 = _ :: bmw.compress.body.drop 9 from rfl, execBlock]
  generalize bmw.compress.body.drop 9 = rest
  run_src [qEnv, call_circular_left, wrapping_add_lit]
  rfl

theorem exec_q7 (b : Val) (m h : Vector U32 16) (q : Vector U32 32) :
    execBlock (ctx ext u p (d + 1)) (bmw.compress.body.drop 9) (qEnv b m h q) =
    execBlock (ctx ext u p (d + 1)) (bmw.compress.body.drop 10) (qEnv b m h (q7 m h q)) := by
  rw [show bmw.compress.body.drop 9 = _ :: bmw.compress.body.drop 10 from rfl, execBlock]
  generalize bmw.compress.body.drop 10 = rest
  run_src [qEnv, call_circular_left, wrapping_add_lit]
  rfl

theorem exec_q8 (b : Val) (m h : Vector U32 16) (q : Vector U32 32) :
    execBlock (ctx ext u p (d + 1)) (bmw.compress.body.drop 10) (qEnv b m h q) =
    execBlock (ctx ext u p (d + 1)) (bmw.compress.body.drop 11) (qEnv b m h (q8 m h q)) := by
  rw [show bmw.compress.body.drop 10 = _ :: bmw.compress.body.drop 11 from rfl, execBlock]
  generalize bmw.compress.body.drop 11 = rest
  run_src [qEnv, call_circular_left, wrapping_add_lit]
  rfl

theorem exec_q9 (b : Val) (m h : Vector U32 16) (q : Vector U32 32) :
    execBlock (ctx ext u p (d + 1)) (bmw.compress.body.drop 11) (qEnv b m h q) =
    execBlock (ctx ext u p (d + 1)) (bmw.compress.body.drop 12) (qEnv b m h (q9 m h q)) := by
  rw [show bmw.compress.body.drop 11 = _ :: bmw.compress.body.drop 12 from rfl, execBlock]
  generalize bmw.compress.body.drop 12 = rest
  run_src [qEnv, call_circular_left, wrapping_add_lit]
  rfl

theorem exec_q10 (b : Val) (m h : Vector U32 16) (q : Vector U32 32) :
    execBlock (ctx ext u p (d + 1)) (bmw.compress.body.drop 12) (qEnv b m h q) =
    execBlock (ctx ext u p (d + 1)) (bmw.compress.body.drop 13) (qEnv b m h (q10 m h q)) := by
  rw [show bmw.compress.body.drop 12 = _ :: bmw.compress.body.drop 13 from rfl, execBlock]
  generalize bmw.compress.body.drop 13 = rest
  run_src [qEnv, call_circular_left, wrapping_add_lit]
  rfl

theorem exec_q11 (b : Val) (m h : Vector U32 16) (q : Vector U32 32) :
    execBlock (ctx ext u p (d + 1)) (bmw.compress.body.drop 13) (qEnv b m h q) =
    execBlock (ctx ext u p (d + 1)) (bmw.compress.body.drop 14) (qEnv b m h (q11 m h q)) := by
  rw [show bmw.compress.body.drop 13 = _ :: bmw.compress.body.drop 14 from rfl, execBlock]
  generalize bmw.compress.body.drop 14 = rest
  run_src [qEnv, call_circular_left, wrapping_add_lit]
  rfl

theorem exec_q12 (b : Val) (m h : Vector U32 16) (q : Vector U32 32) :
    execBlock (ctx ext u p (d + 1)) (bmw.compress.body.drop 14) (qEnv b m h q) =
    execBlock (ctx ext u p (d + 1)) (bmw.compress.body.drop 15) (qEnv b m h (q12 m h q)) := by
  rw [show bmw.compress.body.drop 14 = _ :: bmw.compress.body.drop 15 from rfl, execBlock]
  generalize bmw.compress.body.drop 15 = rest
  run_src [qEnv, call_circular_left, wrapping_add_lit]
  rfl

theorem exec_q13 (b : Val) (m h : Vector U32 16) (q : Vector U32 32) :
    execBlock (ctx ext u p (d + 1)) (bmw.compress.body.drop 15) (qEnv b m h q) =
    execBlock (ctx ext u p (d + 1)) (bmw.compress.body.drop 16) (qEnv b m h (q13 m h q)) := by
  rw [show bmw.compress.body.drop 15 = _ :: bmw.compress.body.drop 16 from rfl, execBlock]
  generalize bmw.compress.body.drop 16 = rest
  run_src [qEnv, call_circular_left, wrapping_add_lit]
  rfl

theorem exec_q14 (b : Val) (m h : Vector U32 16) (q : Vector U32 32) :
    execBlock (ctx ext u p (d + 1)) (bmw.compress.body.drop 16) (qEnv b m h q) =
    execBlock (ctx ext u p (d + 1)) (bmw.compress.body.drop 17) (qEnv b m h (q14 m h q)) := by
  rw [show bmw.compress.body.drop 16 = _ :: bmw.compress.body.drop 17 from rfl, execBlock]
  generalize bmw.compress.body.drop 17 = rest
  run_src [qEnv, call_circular_left, wrapping_add_lit]
  rfl

theorem exec_q15 (b : Val) (m h : Vector U32 16) (q : Vector U32 32) :
    execBlock (ctx ext u p (d + 1)) (bmw.compress.body.drop 17) (qEnv b m h q) =
    execBlock (ctx ext u p (d + 1)) (bmw.compress.body.drop 18) (qEnv b m h (q15 m h q)) := by
  rw [show bmw.compress.body.drop 17 = _ :: bmw.compress.body.drop 18 from rfl, execBlock]
  generalize bmw.compress.body.drop 18 = rest
  run_src [qEnv, call_circular_left, wrapping_add_lit]
  rfl

theorem exec_q16 (b : Val) (m h : Vector U32 16) (q : Vector U32 32) :
    execBlock (ctx ext u p (d + 1)) (bmw.compress.body.drop 18) (qEnv b m h q) =
    execBlock (ctx ext u p (d + 1)) (bmw.compress.body.drop 19) (qEnv b m h (q16 m h q)) := by
  rw [show bmw.compress.body.drop 18 = _ :: bmw.compress.body.drop 19 from rfl, execBlock]
  generalize bmw.compress.body.drop 19 = rest
  run_src [qEnv, call_circular_left, wrapping_add_lit]
  rfl

theorem exec_q17 (b : Val) (m h : Vector U32 16) (q : Vector U32 32) :
    execBlock (ctx ext u p (d + 1)) (bmw.compress.body.drop 19) (qEnv b m h q) =
    execBlock (ctx ext u p (d + 1)) (bmw.compress.body.drop 20) (qEnv b m h (q17 m h q)) := by
  rw [show bmw.compress.body.drop 19 = _ :: bmw.compress.body.drop 20 from rfl, execBlock]
  generalize bmw.compress.body.drop 20 = rest
  run_src [qEnv, call_circular_left, wrapping_add_lit]
  rfl

theorem exec_q18 (b : Val) (m h : Vector U32 16) (q : Vector U32 32) :
    execBlock (ctx ext u p (d + 1)) (bmw.compress.body.drop 20) (qEnv b m h q) =
    execBlock (ctx ext u p (d + 1)) (bmw.compress.body.drop 21) (qEnv b m h (q18 m h q)) := by
  rw [show bmw.compress.body.drop 20 = _ :: bmw.compress.body.drop 21 from rfl, execBlock]
  generalize bmw.compress.body.drop 21 = rest
  run_src [qEnv, call_circular_left, wrapping_add_lit]
  rfl

theorem exec_q19 (b : Val) (m h : Vector U32 16) (q : Vector U32 32) :
    execBlock (ctx ext u p (d + 1)) (bmw.compress.body.drop 21) (qEnv b m h q) =
    execBlock (ctx ext u p (d + 1)) (bmw.compress.body.drop 22) (qEnv b m h (q19 m h q)) := by
  rw [show bmw.compress.body.drop 21 = _ :: bmw.compress.body.drop 22 from rfl, execBlock]
  generalize bmw.compress.body.drop 22 = rest
  run_src [qEnv, call_circular_left, wrapping_add_lit]
  rfl

theorem exec_q20 (b : Val) (m h : Vector U32 16) (q : Vector U32 32) :
    execBlock (ctx ext u p (d + 1)) (bmw.compress.body.drop 22) (qEnv b m h q) =
    execBlock (ctx ext u p (d + 1)) (bmw.compress.body.drop 23) (qEnv b m h (q20 m h q)) := by
  rw [show bmw.compress.body.drop 22 = _ :: bmw.compress.body.drop 23 from rfl, execBlock]
  generalize bmw.compress.body.drop 23 = rest
  run_src [qEnv, call_circular_left, wrapping_add_lit]
  rfl

theorem exec_q21 (b : Val) (m h : Vector U32 16) (q : Vector U32 32) :
    execBlock (ctx ext u p (d + 1)) (bmw.compress.body.drop 23) (qEnv b m h q) =
    execBlock (ctx ext u p (d + 1)) (bmw.compress.body.drop 24) (qEnv b m h (q21 m h q)) := by
  rw [show bmw.compress.body.drop 23 = _ :: bmw.compress.body.drop 24 from rfl, execBlock]
  generalize bmw.compress.body.drop 24 = rest
  run_src [qEnv, call_circular_left, wrapping_add_lit]
  rfl

theorem exec_q22 (b : Val) (m h : Vector U32 16) (q : Vector U32 32) :
    execBlock (ctx ext u p (d + 1)) (bmw.compress.body.drop 24) (qEnv b m h q) =
    execBlock (ctx ext u p (d + 1)) (bmw.compress.body.drop 25) (qEnv b m h (q22 m h q)) := by
  rw [show bmw.compress.body.drop 24 = _ :: bmw.compress.body.drop 25 from rfl, execBlock]
  generalize bmw.compress.body.drop 25 = rest
  run_src [qEnv, call_circular_left, wrapping_add_lit]
  rfl

theorem exec_q23 (b : Val) (m h : Vector U32 16) (q : Vector U32 32) :
    execBlock (ctx ext u p (d + 1)) (bmw.compress.body.drop 25) (qEnv b m h q) =
    execBlock (ctx ext u p (d + 1)) (bmw.compress.body.drop 26) (qEnv b m h (q23 m h q)) := by
  rw [show bmw.compress.body.drop 25 = _ :: bmw.compress.body.drop 26 from rfl, execBlock]
  generalize bmw.compress.body.drop 26 = rest
  run_src [qEnv, call_circular_left, wrapping_add_lit]
  rfl

theorem exec_q24 (b : Val) (m h : Vector U32 16) (q : Vector U32 32) :
    execBlock (ctx ext u p (d + 1)) (bmw.compress.body.drop 26) (qEnv b m h q) =
    execBlock (ctx ext u p (d + 1)) (bmw.compress.body.drop 27) (qEnv b m h (q24 m h q)) := by
  rw [show bmw.compress.body.drop 26 = _ :: bmw.compress.body.drop 27 from rfl, execBlock]
  generalize bmw.compress.body.drop 27 = rest
  run_src [qEnv, call_circular_left, wrapping_add_lit]
  rfl

theorem exec_q25 (b : Val) (m h : Vector U32 16) (q : Vector U32 32) :
    execBlock (ctx ext u p (d + 1)) (bmw.compress.body.drop 27) (qEnv b m h q) =
    execBlock (ctx ext u p (d + 1)) (bmw.compress.body.drop 28) (qEnv b m h (q25 m h q)) := by
  rw [show bmw.compress.body.drop 27 = _ :: bmw.compress.body.drop 28 from rfl, execBlock]
  generalize bmw.compress.body.drop 28 = rest
  run_src [qEnv, call_circular_left, wrapping_add_lit]
  rfl

theorem exec_q26 (b : Val) (m h : Vector U32 16) (q : Vector U32 32) :
    execBlock (ctx ext u p (d + 1)) (bmw.compress.body.drop 28) (qEnv b m h q) =
    execBlock (ctx ext u p (d + 1)) (bmw.compress.body.drop 29) (qEnv b m h (q26 m h q)) := by
  rw [show bmw.compress.body.drop 28 = _ :: bmw.compress.body.drop 29 from rfl, execBlock]
  generalize bmw.compress.body.drop 29 = rest
  run_src [qEnv, call_circular_left, wrapping_add_lit]
  rfl

theorem exec_q27 (b : Val) (m h : Vector U32 16) (q : Vector U32 32) :
    execBlock (ctx ext u p (d + 1)) (bmw.compress.body.drop 29) (qEnv b m h q) =
    execBlock (ctx ext u p (d + 1)) (bmw.compress.body.drop 30) (qEnv b m h (q27 m h q)) := by
  rw [show bmw.compress.body.drop 29 = _ :: bmw.compress.body.drop 30 from rfl, execBlock]
  generalize bmw.compress.body.drop 30 = rest
  run_src [qEnv, call_circular_left, wrapping_add_lit]
  rfl

theorem exec_q28 (b : Val) (m h : Vector U32 16) (q : Vector U32 32) :
    execBlock (ctx ext u p (d + 1)) (bmw.compress.body.drop 30) (qEnv b m h q) =
    execBlock (ctx ext u p (d + 1)) (bmw.compress.body.drop 31) (qEnv b m h (q28 m h q)) := by
  rw [show bmw.compress.body.drop 30 = _ :: bmw.compress.body.drop 31 from rfl, execBlock]
  generalize bmw.compress.body.drop 31 = rest
  run_src [qEnv, call_circular_left, wrapping_add_lit]
  rfl

theorem exec_q29 (b : Val) (m h : Vector U32 16) (q : Vector U32 32) :
    execBlock (ctx ext u p (d + 1)) (bmw.compress.body.drop 31) (qEnv b m h q) =
    execBlock (ctx ext u p (d + 1)) (bmw.compress.body.drop 32) (qEnv b m h (q29 m h q)) := by
  rw [show bmw.compress.body.drop 31 = _ :: bmw.compress.body.drop 32 from rfl, execBlock]
  generalize bmw.compress.body.drop 32 = rest
  run_src [qEnv, call_circular_left, wrapping_add_lit]
  rfl

theorem exec_q30 (b : Val) (m h : Vector U32 16) (q : Vector U32 32) :
    execBlock (ctx ext u p (d + 1)) (bmw.compress.body.drop 32) (qEnv b m h q) =
    execBlock (ctx ext u p (d + 1)) (bmw.compress.body.drop 33) (qEnv b m h (q30 m h q)) := by
  rw [show bmw.compress.body.drop 32 = _ :: bmw.compress.body.drop 33 from rfl, execBlock]
  generalize bmw.compress.body.drop 33 = rest
  run_src [qEnv, call_circular_left, wrapping_add_lit]
  rfl

theorem exec_q31 (b : Val) (m h : Vector U32 16) (q : Vector U32 32) :
    execBlock (ctx ext u p (d + 1)) (bmw.compress.body.drop 33) (qEnv b m h q) =
    execBlock (ctx ext u p (d + 1)) (bmw.compress.body.drop 34) (qEnv b m h (q31 m h q)) := by
  rw [show bmw.compress.body.drop 33 = _ :: bmw.compress.body.drop 34 from rfl, execBlock]
  generalize bmw.compress.body.drop 34 = rest
  run_src [qEnv, call_circular_left, wrapping_add_lit]
  rfl

theorem exec_xl (b : Val) (m h : Vector U32 16) (q : Vector U32 32) :
    execBlock (ctx ext u p (d + 1)) (bmw.compress.body.drop 34) (qEnv b m h q) =
    execBlock (ctx ext u p (d + 1)) (bmw.compress.body.drop 36) (hEnv b m q (xl_of q) (xh_of (xl_of q) q) h) := by
  rw [show bmw.compress.body.drop 34 = _ :: _ :: bmw.compress.body.drop 36 from rfl]
  generalize bmw.compress.body.drop 36 = rest
  run_src [qEnv]
  rfl

theorem exec_h0 (b : Val) (m h : Vector U32 16) (q : Vector U32 32) (xl xh : U32) :
    execBlock (ctx ext u p (d + 1)) (bmw.compress.body.drop 36) (hEnv b m q xl xh h) =
    execBlock (ctx ext u p (d + 1)) (bmw.compress.body.drop 37) (hEnv b m q xl xh (h0 m q xl xh h)) := by
  rw [show bmw.compress.body.drop 36 = _ :: bmw.compress.body.drop 37 from rfl]
  generalize bmw.compress.body.drop 37 = rest
  run_src [qEnv, hEnv, call_circular_left]
  rfl

theorem exec_h1 (b : Val) (m h : Vector U32 16) (q : Vector U32 32) (xl xh : U32) :
    execBlock (ctx ext u p (d + 1)) (bmw.compress.body.drop 37) (hEnv b m q xl xh h) =
    execBlock (ctx ext u p (d + 1)) (bmw.compress.body.drop 38) (hEnv b m q xl xh (h1 m q xl xh h)) := by
  rw [show bmw.compress.body.drop 37 = _ :: bmw.compress.body.drop 38 from rfl]
  generalize bmw.compress.body.drop 38 = rest
  run_src [qEnv, hEnv, call_circular_left]
  rfl

theorem exec_h2 (b : Val) (m h : Vector U32 16) (q : Vector U32 32) (xl xh : U32) :
    execBlock (ctx ext u p (d + 1)) (bmw.compress.body.drop 38) (hEnv b m q xl xh h) =
    execBlock (ctx ext u p (d + 1)) (bmw.compress.body.drop 39) (hEnv b m q xl xh (h2 m q xl xh h)) := by
  rw [show bmw.compress.body.drop 38 = _ :: bmw.compress.body.drop 39 from rfl]
  generalize bmw.compress.body.drop 39 = rest
  run_src [qEnv, hEnv, call_circular_left]
  rfl

theorem exec_h3 (b : Val) (m h : Vector U32 16) (q : Vector U32 32) (xl xh : U32) :
    execBlock (ctx ext u p (d + 1)) (bmw.compress.body.drop 39) (hEnv b m q xl xh h) =
    execBlock (ctx ext u p (d + 1)) (bmw.compress.body.drop 40) (hEnv b m q xl xh (h3 m q xl xh h)) := by
  rw [show bmw.compress.body.drop 39 = _ :: bmw.compress.body.drop 40 from rfl]
  generalize bmw.compress.body.drop 40 = rest
  run_src [qEnv, hEnv, call_circular_left]
  rfl

theorem exec_h4 (b : Val) (m h : Vector U32 16) (q : Vector U32 32) (xl xh : U32) :
    execBlock (ctx ext u p (d + 1)) (bmw.compress.body.drop 40) (hEnv b m q xl xh h) =
    execBlock (ctx ext u p (d + 1)) (bmw.compress.body.drop 41) (hEnv b m q xl xh (h4 m q xl xh h)) := by
  rw [show bmw.compress.body.drop 40 = _ :: bmw.compress.body.drop 41 from rfl]
  generalize bmw.compress.body.drop 41 = rest
  run_src [qEnv, hEnv, call_circular_left]
  rfl

theorem exec_h5 (b : Val) (m h : Vector U32 16) (q : Vector U32 32) (xl xh : U32) :
    execBlock (ctx ext u p (d + 1)) (bmw.compress.body.drop 41) (hEnv b m q xl xh h) =
    execBlock (ctx ext u p (d + 1)) (bmw.compress.body.drop 42) (hEnv b m q xl xh (h5 m q xl xh h)) := by
  rw [show bmw.compress.body.drop 41 = _ :: bmw.compress.body.drop 42 from rfl]
  generalize bmw.compress.body.drop 42 = rest
  run_src [qEnv, hEnv, call_circular_left]
  rfl

theorem exec_h6 (b : Val) (m h : Vector U32 16) (q : Vector U32 32) (xl xh : U32) :
    execBlock (ctx ext u p (d + 1)) (bmw.compress.body.drop 42) (hEnv b m q xl xh h) =
    execBlock (ctx ext u p (d + 1)) (bmw.compress.body.drop 43) (hEnv b m q xl xh (h6 m q xl xh h)) := by
  rw [show bmw.compress.body.drop 42 = _ :: bmw.compress.body.drop 43 from rfl]
  generalize bmw.compress.body.drop 43 = rest
  run_src [qEnv, hEnv, call_circular_left]
  rfl

theorem exec_h7 (b : Val) (m h : Vector U32 16) (q : Vector U32 32) (xl xh : U32) :
    execBlock (ctx ext u p (d + 1)) (bmw.compress.body.drop 43) (hEnv b m q xl xh h) =
    execBlock (ctx ext u p (d + 1)) (bmw.compress.body.drop 44) (hEnv b m q xl xh (h7 m q xl xh h)) := by
  rw [show bmw.compress.body.drop 43 = _ :: bmw.compress.body.drop 44 from rfl]
  generalize bmw.compress.body.drop 44 = rest
  run_src [qEnv, hEnv, call_circular_left]
  rfl

theorem exec_h8 (b : Val) (m h : Vector U32 16) (q : Vector U32 32) (xl xh : U32) :
    execBlock (ctx ext u p (d + 1)) (bmw.compress.body.drop 44) (hEnv b m q xl xh h) =
    execBlock (ctx ext u p (d + 1)) (bmw.compress.body.drop 45) (hEnv b m q xl xh (h8 m q xl xh h)) := by
  rw [show bmw.compress.body.drop 44 = _ :: bmw.compress.body.drop 45 from rfl]
  generalize bmw.compress.body.drop 45 = rest
  run_src [qEnv, hEnv, call_circular_left]
  rfl

theorem exec_h9 (b : Val) (m h : Vector U32 16) (q : Vector U32 32) (xl xh : U32) :
    execBlock (ctx ext u p (d + 1)) (bmw.compress.body.drop 45) (hEnv b m q xl xh h) =
    execBlock (ctx ext u p (d + 1)) (bmw.compress.body.drop 46) (hEnv b m q xl xh (h9 m q xl xh h)) := by
  rw [show bmw.compress.body.drop 45 = _ :: bmw.compress.body.drop 46 from rfl]
  generalize bmw.compress.body.drop 46 = rest
  run_src [qEnv, hEnv, call_circular_left]
  rfl

theorem exec_h10 (b : Val) (m h : Vector U32 16) (q : Vector U32 32) (xl xh : U32) :
    execBlock (ctx ext u p (d + 1)) (bmw.compress.body.drop 46) (hEnv b m q xl xh h) =
    execBlock (ctx ext u p (d + 1)) (bmw.compress.body.drop 47) (hEnv b m q xl xh (h10 m q xl xh h)) := by
  rw [show bmw.compress.body.drop 46 = _ :: bmw.compress.body.drop 47 from rfl]
  generalize bmw.compress.body.drop 47 = rest
  run_src [qEnv, hEnv, call_circular_left]
  rfl

theorem exec_h11 (b : Val) (m h : Vector U32 16) (q : Vector U32 32) (xl xh : U32) :
    execBlock (ctx ext u p (d + 1)) (bmw.compress.body.drop 47) (hEnv b m q xl xh h) =
    execBlock (ctx ext u p (d + 1)) (bmw.compress.body.drop 48) (hEnv b m q xl xh (h11 m q xl xh h)) := by
  rw [show bmw.compress.body.drop 47 = _ :: bmw.compress.body.drop 48 from rfl]
  generalize bmw.compress.body.drop 48 = rest
  run_src [qEnv, hEnv, call_circular_left]
  rfl

theorem exec_h12 (b : Val) (m h : Vector U32 16) (q : Vector U32 32) (xl xh : U32) :
    execBlock (ctx ext u p (d + 1)) (bmw.compress.body.drop 48) (hEnv b m q xl xh h) =
    execBlock (ctx ext u p (d + 1)) (bmw.compress.body.drop 49) (hEnv b m q xl xh (h12 m q xl xh h)) := by
  rw [show bmw.compress.body.drop 48 = _ :: bmw.compress.body.drop 49 from rfl]
  generalize bmw.compress.body.drop 49 = rest
  run_src [qEnv, hEnv, call_circular_left]
  rfl

theorem exec_h13 (b : Val) (m h : Vector U32 16) (q : Vector U32 32) (xl xh : U32) :
    execBlock (ctx ext u p (d + 1)) (bmw.compress.body.drop 49) (hEnv b m q xl xh h) =
    execBlock (ctx ext u p (d + 1)) (bmw.compress.body.drop 50) (hEnv b m q xl xh (h13 m q xl xh h)) := by
  rw [show bmw.compress.body.drop 49 = _ :: bmw.compress.body.drop 50 from rfl]
  generalize bmw.compress.body.drop 50 = rest
  run_src [qEnv, hEnv, call_circular_left]
  rfl

theorem exec_h14 (b : Val) (m h : Vector U32 16) (q : Vector U32 32) (xl xh : U32) :
    execBlock (ctx ext u p (d + 1)) (bmw.compress.body.drop 50) (hEnv b m q xl xh h) =
    execBlock (ctx ext u p (d + 1)) (bmw.compress.body.drop 51) (hEnv b m q xl xh (h14 m q xl xh h)) := by
  rw [show bmw.compress.body.drop 50 = _ :: bmw.compress.body.drop 51 from rfl]
  generalize bmw.compress.body.drop 51 = rest
  run_src [qEnv, hEnv, call_circular_left]
  rfl

theorem exec_h15 (b : Val) (m h : Vector U32 16) (q : Vector U32 32) (xl xh : U32) :
    execBlock (ctx ext u p (d + 1)) (bmw.compress.body.drop 51) (hEnv b m q xl xh h) =
    execBlock (ctx ext u p (d + 1)) (bmw.compress.body.drop 52) (hEnv b m q xl xh (h15 m q xl xh h)) := by
  rw [show bmw.compress.body.drop 51 = _ :: bmw.compress.body.drop 52 from rfl]
  generalize bmw.compress.body.drop 52 = rest
  run_src [qEnv, hEnv, call_circular_left]
  rfl

theorem take_all {n : Nat} (v : Vector U32 n) : part (.words32 v.toArray) 0 n = pure (.words32 v.toArray) := by
  have h : slice v.toArray.toList 0 n = pure v.toArray.toList := by
    rw [slice, if_pos (by simp), List.drop_zero, List.take_of_length_le (by simp)]
  show (slice v.toArray.toList 0 n >>= fun ys => pure (Val.words32 ys.toArray)) = _
  rw [h]; rfl

theorem overwrite_all {n : Nat} (v w : Vector U32 n) : overwrite (.words32 v.toArray) n (.words32 w.toArray) = pure (.words32 w.toArray) := by
  rw [overwrite, if_pos (by simp), List.drop_of_length_le (by simp)]; simp

theorem call_compress (b : Bmw) (m : Vector U32 16) :
    call crate ext u p (d + 2) "bmw::compress" [val b, .words32 m.toArray] = pure (val (compress b m)) := by
  rw [call_fn "bmw::compress" bmw.compress _ (by rfl)]
  have h1 : bindArgs bmw.compress.params [val b, .words32 m.toArray] = pure [("b", val b), ("m", .words32 m.toArray)] := by rfl
  unfold runFn
  rw [h1, pure_bind]
  have h2 : execBlock (ctx ext u p (d + 1)) bmw.compress.body [("b", val b), ("m", .words32 m.toArray)] =
      execBlock (ctx ext u p (d + 1)) (bmw.compress.body.drop 2) (qEnv (val b) m b.h b.q) := by
    rw [show bmw.compress.body = _ :: _ :: bmw.compress.body.drop 2 from rfl]
    generalize bmw.compress.body.drop 2 = rest
    run_src [qEnv, val]
    rfl
  rw [h2, exec_q0, exec_q1, exec_q2, exec_q3, exec_q4, exec_q5, exec_q6, exec_q7, exec_q8, exec_q9, exec_q10, exec_q11, exec_q12, exec_q13, exec_q14, exec_q15, exec_q16, exec_q17, exec_q18, exec_q19, exec_q20, exec_q21, exec_q22, exec_q23, exec_q24, exec_q25, exec_q26, exec_q27, exec_q28, exec_q29, exec_q30, exec_q31, exec_xl, exec_h0, exec_h1, exec_h2, exec_h3, exec_h4, exec_h5, exec_h6, exec_h7, exec_h8, exec_h9, exec_h10, exec_h11, exec_h12, exec_h13, exec_h14, exec_h15]
  rw [show bmw.compress.body.drop 52 = [_, _] from rfl]
  run_src [qEnv, hEnv, val, take_all, overwrite_all, bmw.compress]
  rfl

end Source.Bmw
