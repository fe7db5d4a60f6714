import Verif.Proofs.SrcBmw

/-! The source of `bmw::sum` computes what `Model.Bmw.sum` says. -/

set_option linter.unusedSectionVars false

namespace Source.Bmw
open Rust Model.Bmw Model.Utils
open Source.Cube (exec_for_lit part_bytes)

variable {u : Nat} [Width u] {p : Profile} {ext : String → Option (List U8 → List U8)} {d : Nat} {cx : Ctx}

set_option maxRecDepth 10000

/-- The variables of `sum` while the buffer is filled. -/
def bufEnv (input : List U8) (b : Bmw) (buf : List U8) : Env := [("buf", .bytes buf), ("b", val b), ("input", .bytes input)]

theorem push_u8 (xs : List U8) (h : xs.length < 64) (x : U8) : applyMutator u "push" (.bytes xs) [.u8 x] = pure (.bytes (xs ++ [x])) := by
  show (reserve u 1 (xs.length + 1) >>= fun _ => pure (Val.bytes (xs ++ [x]))) = _
  rw [reserve_small _ _ (by omega), pure_bind]
theorem push_zero (xs : List U8) (h : xs.length < 64) : applyMutator u "push" (.bytes xs) [.lit ((0 : Nat) : Int)] = pure (.bytes (xs ++ [0])) :=
  push_u8 xs h 0

theorem setItem_byte (xs : List U8) (i : Nat) (x : U8) :
    setItem (.bytes xs) i (.u8 x) = (bset xs i x >>= fun ys => pure (.bytes ys)) := by
  simp only [setItem, asInt, bset, if_true, pure_bind]
  split <;> rfl

theorem setItem_80 (xs : List U8) (i : Nat) :
    setItem (.bytes xs) i (.lit ((128 : Nat) : Int)) = (bset xs i 0x80 >>= fun ys => pure (.bytes ys)) := by
  rw [← setItem_byte]; rfl

/-- A pass of the loop that fills the buffer. -/
theorem exec_fill (input : List U8) (h : input.length < 2 ^ 64) (b : Bmw) (k : Nat) (hk : k < 64) (buf : List U8) (hbuf : buf.length = k) :
    execBlock (ctx ext u p (d + 2)) bmw.sum.block1 (("_i", .lit k) :: bufEnv input b buf) =
      ((if k < input.length then do
          let x ← sget input k
          pure (buf ++ [x])
        else pure (buf ++ [0])) >>= fun buf => pure (.next (("_i", .lit k) :: bufEnv input b buf))) := by
  have h1 : (BitVec.ofNat 64 k).toNat = k := by simp; omega
  have h2 : (BitVec.ofNat 64 input.length).toNat = input.length := by simp; omega
  have hb : binOp u p .lt (.lit k) (.usize (BitVec.ofNat 64 input.length)) = pure (.bool (k < input.length)) := by
    rw [lt_lit_usize (n := k) _ (by omega), lt_usize, h1, h2]
  by_cases hlt : k < input.length
  · rw [if_pos hlt]
    run_src [bmw.sum.block1, bufEnv, hb, hlt, decide_true, exec_mutate, push_u8 buf (by omega), position_lit k (by omega)]
    rfl
  · rw [if_neg hlt]
    run_src [bmw.sum.block1, bufEnv, hb, hlt, decide_false, exec_mutate, push_zero buf (by omega)]
    rfl

theorem exec_padBuf (input : List U8) (h : input.length < 2 ^ 64) (rest : List Stmt) :
    execBlock (ctx ext u p (d + 2)) (bmw.sum.body.take 13 ++ rest) [("input", .bytes input)] =
      (padBuf input >>= fun buf => execBlock (ctx ext u p (d + 2)) rest
        (("bit_len", .bytes (toLeBytes64 (BitVec.ofNat 64 input.length <<< 3))) :: bufEnv input new buf)) := by
  have h0 : ∀ rest, execBlock (ctx ext u p (d + 2)) (bmw.sum.body.take 2 ++ rest) [("input", .bytes input)] =
      execBlock (ctx ext u p (d + 2)) rest (bufEnv input new []) := by
    intro rest
    rw [show bmw.sum.body.take 2 ++ rest = _ :: _ :: rest from rfl]
    run_src [call_new, bufEnv]
  have h2 : (BitVec.ofNat 64 input.length).toNat = input.length := by simp; omega
  have h3 : castTo u .u64 (input.length : Int) = .u64 (BitVec.ofNat 64 input.length) := by simp [castTo]
  rw [show bmw.sum.body.take 13 ++ rest = bmw.sum.body.take 2 ++ (.forIn "_i" (.lit 0) (.lit 64) false bmw.sum.block1 ::
    ((bmw.sum.body.take 13).drop 3 ++ rest)) from rfl, h0, execBlock, exec_for_lit _ (by decide), padBuf]
  rw [forLoop_map_inv (bufEnv input new) (fun k buf => buf.length = k) 0 64 (fun i (buf : List U8) =>
    if i < input.length then do
      let x ← sget input i
      pure (buf ++ [x])
    else pure (buf ++ [0])) _ _ _ [] rfl]
  · simp only [bind_assoc, pure_bind]
    refine bind_congr fun buf => ?_
    rw [show (bmw.sum.body.take 13).drop 3 ++ rest = _ :: _ :: _ :: _ :: _ :: _ :: _ :: _ :: _ :: _ :: rest from rfl]
    run_src [bufEnv, setItem_80, setItem_byte, h2, h3]
  · intro k buf hb _ hk
    exact forBody_next (f := bufEnv input new) (fun _ => rfl) (exec_fill input h new k (by omega) buf hb)
  · intro k buf buf' hb _ _ e
    by_cases hk : k < input.length
    · rw [if_pos hk] at e
      obtain ⟨x, _, e⟩ := bind_eq_pure e
      rw [← Res.pure_inj e, List.length_append, hb]
      rfl
    · rw [if_neg hk] at e
      rw [← Res.pure_inj e, List.length_append, hb]
      rfl


/-- The variables of `sum` while the words are read. -/
def wordsEnv (input buf : List U8) (m : Vector U32 16) : Env :=
  ("_i", .lit ((0 : Nat) : Int)) :: ("bit_len", .bytes (toLeBytes64 (BitVec.ofNat 64 input.length <<< 3))) ::
    bufEnv input { new with m := m } buf

/-- A pass of the loop that reads the words. -/
theorem exec_word (input buf : List U8) (m : Vector U32 16) (k : Nat) (hk : k < 16) :
    execBlock (ctx ext u p (d + 2)) bmw.sum.block2 (("_i", .lit k) :: wordsEnv input buf m) =
      ((do
        let x ← read_u32_le (← slice buf (4 * k) (4 * k + 4))
        pure (m.setIfInBounds k x)) >>= fun m => pure (.next ([("end", .lit ((4 * k + 4 : Nat) : Int)), ("start", .lit ((4 * k : Nat) : Int)),
          ("_i", .lit k)] ++ wordsEnv input buf m))) := by
  have e : ∀ x, vset m.toArray k x = pure (m.setIfInBounds k x).toArray := fun x => by
    rw [vset, dif_pos (by simpa using hk)]; simp [Array.setIfInBounds, hk]
  run_src [bmw.sum.block2, wordsEnv, bufEnv, val, call_read_u32_le, part_bytes, e, lit_mul_small 4 k (by decide) (by omega),
    position_lit k (by omega), position_lit (4 * k) (by omega), position_lit (4 * k + 4) (by omega)]

/-- `compress` on a state that is given by its fields. -/
theorem call_compress_fields (m h h2 : Vector U32 16) (q : Vector U32 32) (m' : Vector U32 16) :
    call crate ext u p (d + 2) "bmw::compress" [.struct [("m", .words32 m.toArray), ("h", .words32 h.toArray), ("h2", .words32 h2.toArray),
      ("q", .words32 q.toArray)], .words32 m'.toArray] =
    pure (.struct [("m", .words32 (compress ⟨m, h, h2, q⟩ m').m.toArray), ("h", .words32 (compress ⟨m, h, h2, q⟩ m').h.toArray),
      ("h2", .words32 (compress ⟨m, h, h2, q⟩ m').h2.toArray), ("q", .words32 (compress ⟨m, h, h2, q⟩ m').q.toArray)]) :=
  call_compress ⟨m, h, h2, q⟩ m'

theorem loadWords_eq (buf : List U8) (m : Vector U32 16) :
    loadWords buf m = forLoop 0 16 (fun k m => do
        let x ← read_u32_le (← slice buf (4 * k) (4 * k + 4))
        pure (m.setIfInBounds k x)) m := by
  have e : ∀ (m : Vector U32 16) (i : Fin 16) (x : U32), m.set i x = m.setIfInBounds i x := fun m i x => by
    refine Vector.ext fun j hj => ?_
    simp [Vector.getElem_set, Vector.getElem_setIfInBounds]
  simp only [loadWords, e]
  rfl

theorem call_sum (input : List U8) (h : input.length < 2 ^ 64) :
    call crate ext u p (d + 3) "bmw::sum" [.bytes input] = (sum input >>= fun xs => pure (.bytes xs)) := by
  rw [call_fn "bmw::sum" bmw.sum _ (by rfl)]
  have h1 : bindArgs bmw.sum.params [.bytes input] = pure [("input", .bytes input)] := by rfl
  unfold runFn
  rw [h1, show bmw.sum.body = bmw.sum.body.take 13 ++ (.letVar "_i" none (.lit 0) ::
    .forIn "_i" (.lit 0) (.lit 16) false bmw.sum.block2 :: bmw.sum.body.drop 15) from rfl, pure_bind, exec_padBuf input h, sum]
  simp only [bind_assoc]
  refine bind_congr fun buf => ?_
  have e : ∀ rest, execBlock (ctx ext u p (d + 2)) (.letVar "_i" none (.lit 0) ::
      .forIn "_i" (.lit 0) (.lit 16) false bmw.sum.block2 :: rest)
        (("bit_len", .bytes (toLeBytes64 (BitVec.ofNat 64 input.length <<< 3))) :: bufEnv input new buf) =
      (loadWords buf new.m >>= fun m => execBlock (ctx ext u p (d + 2)) rest (wordsEnv input buf m)) := by
    intro rest
    rw [execBlock, exec, eval, asTy, pure_bind, pure_bind]
    · simp only
      rw [execBlock, exec_for_lit _ (by decide), show ("_i", Val.lit ((0 : Nat) : Int)) :: ("bit_len", .bytes (toLeBytes64 (BitVec.ofNat 64 input.length <<< 3))) ::
        bufEnv input new buf = wordsEnv input buf new.m from rfl, forLoop_map (wordsEnv input buf) 0 16 (fun k m => do
        let x ← read_u32_le (← slice buf (4 * k) (4 * k + 4))
        pure (m.setIfInBounds k x)) _ _ new.m, ← loadWords_eq]
      · simp only [bind_assoc, pure_bind]
      · intro k m _ hk
        exact forBody_scope _ (fun _ => rfl) (exec_word input buf m k (by omega))
    · simp
  rw [e, bind_assoc]
  refine bind_congr fun m => ?_
  rw [show bmw.sum.body.drop 15 = _ :: _ :: _ :: _ :: _ :: _ :: _ :: _ :: _ :: _ :: _ :: _ :: _ :: _ :: _ :: _ :: [] from rfl]
  run_src [bmw.sum, wordsEnv, bufEnv, call_FINAL, call_compress_fields, val, take_all, overwrite_all, exec_mutate, extend_bytes]
  have h4 : ∀ x : U32, (toLeBytes32 x).length = 4 := fun _ => rfl
  iterate 8 rw [extend_small _ _ (by simp [h4]), pure_bind]
  rfl

end Source.Bmw
