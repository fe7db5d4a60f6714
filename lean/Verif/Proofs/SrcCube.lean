import Verif.Model.CubeHash
import Verif.Proofs.SrcSponge

/-! The source of `cubehash` computes what `Model.CubeHash` says. -/

set_option linter.unusedSectionVars false

namespace Source.Cube
open Rust Model.CubeHash Model.Utils

variable {u : Nat} [Width u] {p : Profile} {ext : String → Option (List U8 → List U8)} {d : Nat} {cx : Ctx}

set_option maxRecDepth 10000

/-- The fields of the state. -/
def fields (c : CubeHash) : List (String × Val) :=
  [("x0", .u32 c.x0), ("x1", .u32 c.x1), ("x2", .u32 c.x2), ("x3", .u32 c.x3), ("x4", .u32 c.x4), ("x5", .u32 c.x5), ("x6", .u32 c.x6), ("x7", .u32 c.x7), ("x8", .u32 c.x8), ("x9", .u32 c.x9), ("xa", .u32 c.xa), ("xb", .u32 c.xb), ("xc", .u32 c.xc), ("xd", .u32 c.xd), ("xe", .u32 c.xe), ("xf", .u32 c.xf), ("xg", .u32 c.xg), ("xh", .u32 c.xh), ("xi", .u32 c.xi), ("xj", .u32 c.xj), ("xk", .u32 c.xk), ("xl", .u32 c.xl), ("xm", .u32 c.xm), ("xn", .u32 c.xn), ("xo", .u32 c.xo), ("xp", .u32 c.xp), ("xq", .u32 c.xq), ("xr", .u32 c.xr), ("xs", .u32 c.xs), ("xt", .u32 c.xt), ("xu", .u32 c.xu), ("xv", .u32 c.xv)]

/-- The state as a value. -/
def val (c : CubeHash) : Val := .struct (fields c)

/-- The fields. -/
inductive Reg
  | x0 | x1 | x2 | x3 | x4 | x5 | x6 | x7 | x8 | x9 | xa | xb | xc | xd | xe | xf | xg | xh | xi | xj | xk | xl | xm | xn | xo | xp | xq | xr | xs | xt | xu | xv

/-- The name of a field. -/
def name : Reg → String
  | .x0 => "x0"
  | .x1 => "x1"
  | .x2 => "x2"
  | .x3 => "x3"
  | .x4 => "x4"
  | .x5 => "x5"
  | .x6 => "x6"
  | .x7 => "x7"
  | .x8 => "x8"
  | .x9 => "x9"
  | .xa => "xa"
  | .xb => "xb"
  | .xc => "xc"
  | .xd => "xd"
  | .xe => "xe"
  | .xf => "xf"
  | .xg => "xg"
  | .xh => "xh"
  | .xi => "xi"
  | .xj => "xj"
  | .xk => "xk"
  | .xl => "xl"
  | .xm => "xm"
  | .xn => "xn"
  | .xo => "xo"
  | .xp => "xp"
  | .xq => "xq"
  | .xr => "xr"
  | .xs => "xs"
  | .xt => "xt"
  | .xu => "xu"
  | .xv => "xv"

/-- A field. -/
def get (c : CubeHash) : Reg → U32
  | .x0 => c.x0
  | .x1 => c.x1
  | .x2 => c.x2
  | .x3 => c.x3
  | .x4 => c.x4
  | .x5 => c.x5
  | .x6 => c.x6
  | .x7 => c.x7
  | .x8 => c.x8
  | .x9 => c.x9
  | .xa => c.xa
  | .xb => c.xb
  | .xc => c.xc
  | .xd => c.xd
  | .xe => c.xe
  | .xf => c.xf
  | .xg => c.xg
  | .xh => c.xh
  | .xi => c.xi
  | .xj => c.xj
  | .xk => c.xk
  | .xl => c.xl
  | .xm => c.xm
  | .xn => c.xn
  | .xo => c.xo
  | .xp => c.xp
  | .xq => c.xq
  | .xr => c.xr
  | .xs => c.xs
  | .xt => c.xt
  | .xu => c.xu
  | .xv => c.xv

/-- Changes a field. -/
def set (c : CubeHash) (i : Reg) (x : U32) : CubeHash :=
  match i with
  | .x0 => { c with x0 := x }
  | .x1 => { c with x1 := x }
  | .x2 => { c with x2 := x }
  | .x3 => { c with x3 := x }
  | .x4 => { c with x4 := x }
  | .x5 => { c with x5 := x }
  | .x6 => { c with x6 := x }
  | .x7 => { c with x7 := x }
  | .x8 => { c with x8 := x }
  | .x9 => { c with x9 := x }
  | .xa => { c with xa := x }
  | .xb => { c with xb := x }
  | .xc => { c with xc := x }
  | .xd => { c with xd := x }
  | .xe => { c with xe := x }
  | .xf => { c with xf := x }
  | .xg => { c with xg := x }
  | .xh => { c with xh := x }
  | .xi => { c with xi := x }
  | .xj => { c with xj := x }
  | .xk => { c with xk := x }
  | .xl => { c with xl := x }
  | .xm => { c with xm := x }
  | .xn => { c with xn := x }
  | .xo => { c with xo := x }
  | .xp => { c with xp := x }
  | .xq => { c with xq := x }
  | .xr => { c with xr := x }
  | .xs => { c with xs := x }
  | .xt => { c with xt := x }
  | .xu => { c with xu := x }
  | .xv => { c with xv := x }

theorem get_field (c : CubeHash) (i : Reg) : Env.get (name i) (fields c) = pure (.u32 (get c i)) := by
  cases i <;> rfl

theorem set_field (c : CubeHash) (i : Reg) (x : U32) : Env.set (name i) (.u32 x) (fields c) = pure (fields (set c i x)) := by
  cases i <;> rfl

/-- The statements in the loop of `sixteen_rounds`. -/
inductive Op
  /-- `c.xj = c.xi.wrapping_add(c.xj)`. -/
  | add (i j : Reg)
  /-- `c.xi = (c.xi << r) | (c.xi >> (32 - r))`. -/
  | rot (i : Reg) (r : Nat)
  /-- `c.xi ^= c.xj`. -/
  | xor (i j : Reg)

/-- `c.xi`. -/
def fieldExpr (i : Reg) : Expr := .field (.var "c") (name i)

/-- The syntax of a statement. -/
def Op.stmt : Op → Stmt
  | .add i j => .assign (fieldExpr j) (.method (fieldExpr i) "wrapping_add" [fieldExpr j])
  | .rot i r => .assign (fieldExpr i) (.bin .or (.bin .shl (fieldExpr i) (.lit r)) (.bin .shr (fieldExpr i) (.bin .sub (.lit 32) (.lit r))))
  | .xor i j => .assignOp .xor (fieldExpr i) (fieldExpr j)

/-- The effect of a statement. -/
def Op.run (c : CubeHash) : Op → CubeHash
  | .add i j => set c j (get c i + get c j)
  | .rot i r => set c i ((get c i <<< r) ||| (get c i >>> (32 - r)))
  | .xor i j => set c i (get c i ^^^ get c j)

/-- The amounts by which the code rotates are less than 32 and not 0. -/
def Op.ok : Op → Bool
  | .rot _ r => 0 < r && r < 32
  | _ => true

theorem eval_field (c : CubeHash) (env : Env) (h : Has env "c" (val c)) (i : Reg) (want : Option Ty) :
    eval cx env want (fieldExpr i) = pure (.u32 (get c i)) := by
  rw [fieldExpr, eval, eval_var h, pure_bind]
  exact get_field c i

theorem place_field (env : Env) (i : Reg) : place cx env (fieldExpr i) = pure ("c", [.field (name i)]) := by
  rfl

theorem write_field (c : CubeHash) {env : Env} (h : Has env "c" (val c)) (i : Reg) (x : U32) :
    writePlace env ("c", [.field (name i)]) (.u32 x) = pure (env.upd "c" (val (set c i x))) := by
  unfold writePlace
  rw [h]
  simp only [pure_bind, writeSteps, val, getField, get_field, likeOld, setField, set_field]
  exact h.set _

theorem read_field (c : CubeHash) {env : Env} (h : Has env "c" (val c)) (i : Reg) :
    readPlace env ("c", [.field (name i)]) = pure (.u32 (get c i)) := by
  unfold readPlace
  rw [h]
  simp only [pure_bind, readSteps, val, getField, get_field]

theorem exec_op (c : CubeHash) {env : Env} (h : Has env "c" (val c)) (o : Op) (ho : o.ok = true) :
    exec cx o.stmt env = pure (.next (env.upd "c" (val (o.run c)))) := by
  cases o with
  | add i j =>
    simp only [Op.stmt, Op.run, exec, eval, evalList, eval_field c env h, pure_bind, wrapping_add_u32, place_field, write_field c h]
  | rot i r =>
    simp only [Op.ok, Bool.and_eq_true, decide_eq_true_eq] at ho
    have h1 : 32 - r < 32 := by omega
    have h2 : r ≤ 32 := by omega
    simp only [Op.stmt, Op.run, exec, eval, asTy, eval_field c env h, pure_bind, lit_sub _ _ h2 (by decide), shl_u32_lit _ _ ho.2, shr_u32_lit _ _ h1, or_u32, place_field, write_field c h]
  | xor i j =>
    simp only [Op.stmt, Op.run, exec, eval_field c env h, pure_bind, read_field c h, xor_u32, place_field, write_field c h]

theorem exec_ops (ops : List Op) (hops : ∀ o ∈ ops, o.ok = true) (rest : List Stmt) (c : CubeHash) {env : Env} (h : Has env "c" (val c)) :
    execBlock cx (ops.map Op.stmt ++ rest) env = execBlock cx rest (env.upd "c" (val (ops.foldl Op.run c))) := by
  induction ops generalizing c env with
  | nil => rw [List.map_nil, List.nil_append, List.foldl_nil, Env.upd_same h]
  | cons o ops ih =>
    rw [List.map_cons, List.cons_append, execBlock, exec_op c h o (hops o (by simp)), pure_bind]
    simp only
    rw [ih (fun o ho => hops o (by simp [ho])) (o.run c) (h.upd_self _), Env.upd_upd, List.foldl_cons]

/-- The first half of the loop body. -/
def ops1 : List Op :=
  [    .add .x0 .xg, .rot .x0 7, .add .x1 .xh, .rot .x1 7, .add .x2 .xi, .rot .x2 7, .add .x3 .xj, .rot .x3 7,
    .add .x4 .xk, .rot .x4 7, .add .x5 .xl, .rot .x5 7, .add .x6 .xm, .rot .x6 7, .add .x7 .xn, .rot .x7 7,
    .add .x8 .xo, .rot .x8 7, .add .x9 .xp, .rot .x9 7, .add .xa .xq, .rot .xa 7, .add .xb .xr, .rot .xb 7,
    .add .xc .xs, .rot .xc 7, .add .xd .xt, .rot .xd 7, .add .xe .xu, .rot .xe 7, .add .xf .xv, .rot .xf 7,
    .xor .x8 .xg, .xor .x9 .xh, .xor .xa .xi, .xor .xb .xj, .xor .xc .xk, .xor .xd .xl, .xor .xe .xm, .xor .xf .xn,
    .xor .x0 .xo, .xor .x1 .xp, .xor .x2 .xq, .xor .x3 .xr, .xor .x4 .xs, .xor .x5 .xt, .xor .x6 .xu, .xor .x7 .xv,
    .add .x8 .xi, .rot .x8 11, .add .x9 .xj, .rot .x9 11, .add .xa .xg, .rot .xa 11, .add .xb .xh, .rot .xb 11,
    .add .xc .xm, .rot .xc 11, .add .xd .xn, .rot .xd 11, .add .xe .xk, .rot .xe 11, .add .xf .xl, .rot .xf 11,
    .add .x0 .xq, .rot .x0 11, .add .x1 .xr, .rot .x1 11, .add .x2 .xo, .rot .x2 11, .add .x3 .xp, .rot .x3 11,
    .add .x4 .xu, .rot .x4 11, .add .x5 .xv, .rot .x5 11, .add .x6 .xs, .rot .x6 11, .add .x7 .xt, .rot .x7 11,
    .xor .xc .xi, .xor .xd .xj, .xor .xe .xg, .xor .xf .xh, .xor .x8 .xm, .xor .x9 .xn, .xor .xa .xk, .xor .xb .xl,
    .xor .x4 .xq, .xor .x5 .xr, .xor .x6 .xo, .xor .x7 .xp, .xor .x0 .xu, .xor .x1 .xv, .xor .x2 .xs, .xor .x3 .xt]

/-- The second half of the loop body. -/
def ops2 : List Op :=
  [    .add .xc .xj, .rot .xc 7, .add .xd .xi, .rot .xd 7, .add .xe .xh, .rot .xe 7, .add .xf .xg, .rot .xf 7,
    .add .x8 .xn, .rot .x8 7, .add .x9 .xm, .rot .x9 7, .add .xa .xl, .rot .xa 7, .add .xb .xk, .rot .xb 7,
    .add .x4 .xr, .rot .x4 7, .add .x5 .xq, .rot .x5 7, .add .x6 .xp, .rot .x6 7, .add .x7 .xo, .rot .x7 7,
    .add .x0 .xv, .rot .x0 7, .add .x1 .xu, .rot .x1 7, .add .x2 .xt, .rot .x2 7, .add .x3 .xs, .rot .x3 7,
    .xor .x4 .xj, .xor .x5 .xi, .xor .x6 .xh, .xor .x7 .xg, .xor .x0 .xn, .xor .x1 .xm, .xor .x2 .xl, .xor .x3 .xk,
    .xor .xc .xr, .xor .xd .xq, .xor .xe .xp, .xor .xf .xo, .xor .x8 .xv, .xor .x9 .xu, .xor .xa .xt, .xor .xb .xs,
    .add .x4 .xh, .rot .x4 11, .add .x5 .xg, .rot .x5 11, .add .x6 .xj, .rot .x6 11, .add .x7 .xi, .rot .x7 11,
    .add .x0 .xl, .rot .x0 11, .add .x1 .xk, .rot .x1 11, .add .x2 .xn, .rot .x2 11, .add .x3 .xm, .rot .x3 11,
    .add .xc .xp, .rot .xc 11, .add .xd .xo, .rot .xd 11, .add .xe .xr, .rot .xe 11, .add .xf .xq, .rot .xf 11,
    .add .x8 .xt, .rot .x8 11, .add .x9 .xs, .rot .x9 11, .add .xa .xv, .rot .xa 11, .add .xb .xu, .rot .xb 11,
    .xor .x0 .xh, .xor .x1 .xg, .xor .x2 .xj, .xor .x3 .xi, .xor .x4 .xl, .xor .x5 .xk, .xor .x6 .xn, .xor .x7 .xm,
    .xor .x8 .xp, .xor .x9 .xo, .xor .xa .xr, .xor .xb .xq, .xor .xc .xt, .xor .xd .xs, .xor .xe .xv, .xor .xf .xu]

theorem run_ops1 (c : CubeHash) : ops1.foldl Op.run c = half1 c := by
  obtain ⟨a0, a1, a2, a3, a4, a5, a6, a7, a8, a9, a10, a11, a12, a13, a14, a15, a16, a17, a18, a19, a20, a21, a22, a23, a24, a25, a26, a27, a28, a29, a30, a31⟩ := c
  rfl

theorem run_ops2 (c : CubeHash) : ops2.foldl Op.run c = half2 c := by
  obtain ⟨a0, a1, a2, a3, a4, a5, a6, a7, a8, a9, a10, a11, a12, a13, a14, a15, a16, a17, a18, a19, a20, a21, a22, a23, a24, a25, a26, a27, a28, a29, a30, a31⟩ := c
  rfl

theorem body_eq : cubehash.sixteen_rounds.block1 = (ops1 ++ ops2).map Op.stmt := by rfl

/-! ## The functions -/

theorem exec_rounds (c : CubeHash) {env : Env} (h : Has env "c" (val c)) :
    execBlock cx cubehash.sixteen_rounds.block1 env = pure (.next (env.upd "c" (val (twoRounds c)))) := by
  have hops : ∀ o ∈ ops1 ++ ops2, o.ok = true := by decide
  rw [body_eq, ← List.append_nil (List.map _ _), exec_ops _ hops _ c h, List.foldl_append, run_ops1, run_ops2, execBlock]
  rfl

theorem roundsLoop_eq (n i : Nat) (c : CubeHash) : forLoop i n (fun _ c => pure (twoRounds c)) c = pure (roundsLoop n c) := by
  induction n generalizing i c with
  | zero => rfl
  | succ n ih => rw [forLoop, pure_bind, ih, roundsLoop]

theorem finalLoop_eq (n i : Nat) (c : CubeHash) : forLoop i n (fun _ c => pure (sixteen_rounds c)) c = pure (finalLoop n c) := by
  induction n generalizing i c with
  | zero => rfl
  | succ n ih => rw [forLoop, pure_bind, ih, finalLoop]

/-- `for x in 0..n` with a literal. -/
theorem exec_for_lit {env : Env} (n : Nat) (hn : n < 128) (x : String) (body : List Stmt) :
    exec cx (.forIn x (.lit 0) (.lit n) false body) env =
      (forLoop 0 n (forBody cx x (fun k => .lit k) body) env >>= fun env => pure (.next env)) := by
  rw [exec, eval, eval, asTy, asTy]
  · simp only [pure_bind, num_lit 0 (by decide), num_lit n hn]
    have e1 : ((n : Int) - ((0 : Nat) : Int) + (if false = true then 1 else 0)).toNat = n := by simp
    rw [e1]
    have e2 : ∀ k : Nat, rangeVal (.lit ((0 : Nat) : Int)) (.lit (n : Int)) (((0 : Nat) : Int) + k) = .lit k := by
      intro k
      simp [rangeVal]
    simp only [e2]
    rfl
  · simp
  · simp

theorem call_IV : call crate ext u p (d + 1) "cubehash::IV" [] = pure (.words32 IV.toArray) := by
  rw [call_fn "cubehash::IV" cubehash.IV _ (by rfl)]
  run_src [runFn, cubehash.IV]
  rfl

theorem call_new : call crate ext u p (d + 2) "cubehash::new_cube_hash" [] = pure (val new_cube_hash) := by
  rw [call_fn "cubehash::new_cube_hash" cubehash.new_cube_hash _ (by rfl)]
  run_src [runFn, cubehash.new_cube_hash, call_IV]
  rfl

theorem part_bytes (xs : List U8) (lo hi : Nat) : part (.bytes xs) lo hi = (slice xs lo hi >>= fun ys => pure (.bytes ys)) := rfl

theorem call_input_block (data : List U8) (c : CubeHash) : call crate ext u p (d + 2) "cubehash::input_block" [.bytes data, val c] =
    (input_block data c >>= fun c => pure (val c)) := by
  rw [call_fn "cubehash::input_block" cubehash.input_block _ (by rfl)]
  run_src [runFn, cubehash.input_block, call_read_u32_le, part_bytes, val, fields, input_block]

theorem call_sixteen_rounds (c : CubeHash) : call crate ext u p (d + 1) "cubehash::sixteen_rounds" [val c] = pure (val (sixteen_rounds c)) := by
  rw [call_fn "cubehash::sixteen_rounds" cubehash.sixteen_rounds _ (by rfl)]
  have h : cubehash.sixteen_rounds.body = [.letVar "_i" none (.lit 0), .forIn "_i" (.lit 0) (.lit 8) false cubehash.sixteen_rounds.block1] := by rfl
  have h1 : bindArgs cubehash.sixteen_rounds.params [val c] = pure [("c", val c)] := by rfl
  unfold runFn
  rw [h1, h, pure_bind, execBlock, exec, eval, asTy, pure_bind, pure_bind]
  · simp only
    rw [execBlock, exec_for_lit _ (by decide), forLoop_map (fun c => [("_i", .lit ((0 : Nat) : Int)), ("c", val c)]) 0 8 (fun _ c => pure (twoRounds c)) _ _ c, roundsLoop_eq]
    · run_src [cubehash.sixteen_rounds]
      rfl
    · intro k c _ _
      refine forBody_next (f := fun c => [("_i", .lit ((0 : Nat) : Int)), ("c", val c)]) (fun _ => rfl) ?_
      rw [exec_rounds c (by rfl)]
      rfl
  · simp

theorem likeOld_val (v : Val) (c : CubeHash) : likeOld v (val c) = pure (val c) := rfl

theorem exec_xv (c : CubeHash) {env : Env} (h : Has env "c" (val c)) :
    exec cx (.assignOp .xor (.field (.var "c") "xv") (.lit 1)) env = pure (.next (env.upd "c" (val { c with xv := c.xv ^^^ 1 }))) := by
  rw [exec, eval, asTy]
  · rw [pure_bind, show Expr.field (.var "c") "xv" = fieldExpr .xv from rfl, place_field, pure_bind, read_field c h, pure_bind,
      xor_u32_lit (n := 1) _ (by decide), xor_u32, pure_bind, write_field c h]
    rfl
  · simp

/-- The variables of `sum`. -/
def sumEnv (data : List U8) (c : CubeHash) : Env := [("buf", .bytes ((List.replicate 32 0).set 0 0x80)), ("c", val c), ("data", .bytes data)]

/-- The state before the last statements. -/
theorem exec_finalState (data : List U8) (rest : List Stmt) :
    execBlock (ctx ext u p (d + 2)) (cubehash.sum.body.take 9 ++ rest) [("data", .bytes data)] =
      (finalState data >>= fun c => execBlock (ctx ext u p (d + 2)) rest (sumEnv data c)) := by
  have h1 : ∀ rest, execBlock (ctx ext u p (d + 2)) (cubehash.sum.body.take 7 ++ rest) [("data", .bytes data)] =
      (input_block data new_cube_hash >>= fun c => input_block ((List.replicate 32 0).set 0 0x80) (sixteen_rounds c) >>= fun c =>
        execBlock (ctx ext u p (d + 2)) rest (sumEnv data (sixteen_rounds c))) := by
    intro rest
    rw [show cubehash.sum.body.take 7 ++ rest = _ :: _ :: _ :: _ :: _ :: _ :: _ :: rest from rfl]
    have e1 : repeated u (some (Ty.vec IntTy.u8)) (.lit ((0 : Nat) : Int)) 32 = pure (.bytes (List.replicate 32 0)) := by
      show (reserve u 1 32 >>= fun _ => pure (Val.bytes (List.replicate 32 (BitVec.ofNat 8 0)))) = _
      rw [reserve_small _ _ (by decide), pure_bind]
      rfl
    have e2 : setItem (.bytes (List.replicate 32 0)) 0 (.lit ((128 : Nat) : Int)) = pure (.bytes ((List.replicate 32 0).set 0 0x80)) := by rfl
    run_src [call_new, call_input_block, call_sixteen_rounds, likeOld_val, e1, e2, sumEnv]
  have h2 : cubehash.sum.body.take 9 ++ rest = cubehash.sum.body.take 7 ++ (.assignOp .xor (.field (.var "c") "xv") (.lit 1) ::
    .forIn "_j" (.lit 0) (.lit 10) false cubehash.sum.block1 :: rest) := by rfl
  rw [h2, h1, finalState]
  simp only [bind_assoc, pure_bind]
  refine bind_congr fun c => ?_
  refine bind_congr fun c => ?_
  rw [execBlock, exec_xv _ (by rfl)]
  rw [show ∀ c c', Env.upd "c" (val c') (sumEnv data c) = sumEnv data c' from fun _ _ => rfl]
  generalize ({ sixteen_rounds c with xv := (sixteen_rounds c).xv ^^^ 1 } : CubeHash) = c
  simp only [pure_bind]
  rw [execBlock, exec_for_lit _ (by decide)]
  rw [forLoop_map (sumEnv data) 0 10 (fun _ c => pure (sixteen_rounds c)) _ _ c, finalLoop_eq]
  · rfl
  · intro k c _ _
    refine forBody_next (f := sumEnv data) (fun _ => rfl) ?_
    run_src [cubehash.sum.block1, call_sixteen_rounds, likeOld_val, sumEnv]

theorem call_sum (data : List U8) : call crate ext u p (d + 3) "cubehash::sum" [.bytes data] = (sum data >>= fun xs => pure (.bytes xs)) := by
  rw [call_fn "cubehash::sum" cubehash.sum _ (by rfl)]
  have h : cubehash.sum.body = cubehash.sum.body.take 9 ++ cubehash.sum.body.drop 9 := by rfl
  have h1 : bindArgs cubehash.sum.params [.bytes data] = pure [("data", .bytes data)] := by rfl
  unfold runFn
  rw [h1, h, pure_bind, exec_finalState, sum]
  simp only [bind_assoc]
  refine bind_congr fun c => ?_
  rw [show cubehash.sum.body.drop 9 = _ :: _ :: _ :: _ :: _ :: _ :: _ :: _ :: _ :: [] from rfl]
  run_src [cubehash.sum, val, fields, sumEnv, extend_bytes]
  have h4 : ∀ x : U32, (toLeBytes32 x).length = 4 := fun _ => rfl
  iterate 8 rw [extend_small _ _ (by simp [h4]), pure_bind]
  rfl

end Source.Cube
