import Verif.Proofs.CubeRounds
import Verif.Proofs.Lyra2Post

/-! The CubeHash stage computes CubeHash16/32-256. -/

namespace Proofs.CubeHash
open Rust Rust.Res Spec Spec.CubeHash Model.Utils
open Model.CubeHash (half1 half2 twoRounds roundsLoop sixteen_rounds finalLoop input_block new_cube_hash)

/-! ## Rounds -/

theorem rounds_add (a b : Nat) (x : State) : rounds (a + b) x = rounds b (rounds a x) := by
  induction a generalizing x with
  | zero => rw [Nat.zero_add]; rfl
  | succ a ih => rw [show a + 1 + b = (a + b) + 1 by omega]; exact ih (round x)

theorem roundsLoop_eq (n : Nat) (c : Code) : vec (roundsLoop n c) = rounds (2 * n) (vec c) := by
  induction n generalizing c with
  | zero => rfl
  | succ n ih =>
    rw [show 2 * (n + 1) = 2 + 2 * n by omega, rounds_add, ← twoRounds_eq]
    exact ih (twoRounds c)

theorem sixteen_eq (c : Code) : vec (sixteen_rounds c) = rounds 16 (vec c) := roundsLoop_eq 8 c

theorem finalLoop_eq (n : Nat) (c : Code) : vec (finalLoop n c) = rounds (16 * n) (vec c) := by
  induction n generalizing c with
  | zero => rfl
  | succ n ih =>
    rw [show 16 * (n + 1) = 16 + 16 * n by omega, rounds_add, ← sixteen_eq]
    exact ih (sixteen_rounds c)

/-! The initialisation vector is checked by evaluating 160 rounds in the kernel. The evaluation is made strict by `forceW`. -/

/-- `k n`, evaluating `n` first. -/
def forceN {α : Type} (n : Nat) (k : Nat → α) : α := Nat.casesOn n (k 0) fun m => k (m + 1)

theorem forceN_eq {α : Type} (n : Nat) (k : Nat → α) : forceN n k = k n := by cases n <;> rfl

/-- `k w`, evaluating `w` first. -/
def forceW {α : Type} (w : W) (k : W → α) : α := forceN w.toNat fun n => k (BitVec.ofNat 32 n)

theorem forceW_eq {α : Type} (w : W) (k : W → α) : forceW w k = k w := by
  unfold forceW
  rw [forceN_eq, BitVec.ofNat_toNat, BitVec.setWidth_eq]

/-- `k c`, evaluating the words of `c` first. -/
def forceC {α : Type} (c : Code) (k : Code → α) : α :=
  forceW c.x0 fun a0 =>
  forceW c.x1 fun a1 =>
  forceW c.x2 fun a2 =>
  forceW c.x3 fun a3 =>
  forceW c.x4 fun a4 =>
  forceW c.x5 fun a5 =>
  forceW c.x6 fun a6 =>
  forceW c.x7 fun a7 =>
  forceW c.x8 fun a8 =>
  forceW c.x9 fun a9 =>
  forceW c.xa fun a10 =>
  forceW c.xb fun a11 =>
  forceW c.xc fun a12 =>
  forceW c.xd fun a13 =>
  forceW c.xe fun a14 =>
  forceW c.xf fun a15 =>
  forceW c.xg fun a16 =>
  forceW c.xh fun a17 =>
  forceW c.xi fun a18 =>
  forceW c.xj fun a19 =>
  forceW c.xk fun a20 =>
  forceW c.xl fun a21 =>
  forceW c.xm fun a22 =>
  forceW c.xn fun a23 =>
  forceW c.xo fun a24 =>
  forceW c.xp fun a25 =>
  forceW c.xq fun a26 =>
  forceW c.xr fun a27 =>
  forceW c.xs fun a28 =>
  forceW c.xt fun a29 =>
  forceW c.xu fun a30 =>
  forceW c.xv fun a31 =>
  k ⟨a0, a1, a2, a3, a4, a5, a6, a7, a8, a9, a10, a11, a12, a13, a14, a15, a16, a17, a18, a19, a20, a21, a22, a23, a24, a25, a26, a27, a28, a29, a30, a31⟩

theorem forceC_eq {α : Type} (c : Code) (k : Code → α) : forceC c k = k c := by
  unfold forceC
  simp only [forceW_eq]

/-- `roundsLoop`, strict. -/
def strictLoop : Nat → Code → Code
  | 0, c => c
  | n + 1, c => forceC (half1 c) fun c => forceC (half2 c) fun c => strictLoop n c

theorem strictLoop_eq (n : Nat) (c : Code) : strictLoop n c = roundsLoop n c := by
  induction n generalizing c with
  | zero => rfl
  | succ n ih => unfold strictLoop; rw [forceC_eq, forceC_eq, ih]; rfl

/-- The state before the initial 160 rounds. -/
def start : Code := ⟨32, 32, 16, 0, 0, 0, 0, 0, 0, 0, 0, 0, 0, 0, 0, 0, 0, 0, 0, 0, 0, 0, 0, 0, 0, 0, 0, 0, 0, 0, 0, 0⟩

theorem strict_iv : strictLoop 80 start = new_cube_hash := by decide +kernel

theorem start_eq : vec start = Vector.ofFn fun n => if n = 0 then 32 else if n = 1 then 32 else if n = 2 then 16 else 0 := by
  decide +kernel

theorem iv_eq : vec new_cube_hash = init := by
  unfold init
  rw [← strict_iv, strictLoop_eq, roundsLoop_eq, start_eq]

/-! ## Input -/

/-- Reading the word at byte `lo`. -/
def rd (data : List U8) (lo : Nat) : Res U32 := slice data lo (lo + 4) >>= read_u32_le

theorem input_block_nf (data : List U8) (x0 x1 x2 x3 x4 x5 x6 x7 x8 x9 xa xb xc xd xe xf xg xh xi xj xk xl xm xn xo xp xq xr xs xt xu xv : U32) :
    input_block data ⟨x0, x1, x2, x3, x4, x5, x6, x7, x8, x9, xa, xb, xc, xd, xe, xf, xg, xh, xi, xj, xk, xl, xm, xn, xo, xp, xq, xr, xs, xt, xu, xv⟩ =
      (rd data 0 >>= fun a0 =>
      rd data 4 >>= fun a1 =>
      rd data 8 >>= fun a2 =>
      rd data 12 >>= fun a3 =>
      rd data 16 >>= fun a4 =>
      rd data 20 >>= fun a5 =>
      rd data 24 >>= fun a6 =>
      rd data 28 >>= fun a7 =>
      pure ⟨x0 ^^^ a0, x1 ^^^ a1, x2 ^^^ a2, x3 ^^^ a3, x4 ^^^ a4, x5 ^^^ a5, x6 ^^^ a6, x7 ^^^ a7, x8, x9, xa, xb, xc, xd, xe, xf, xg, xh, xi, xj, xk, xl, xm, xn, xo, xp, xq, xr, xs, xt, xu, xv⟩) := by
  unfold input_block rd
  simp only [bind_assoc, Nat.reduceAdd]

theorem input_block_ok {data : List U8} (h : 32 ≤ data.length) (c : Code) :
    ∃ c', input_block data c = pure c' ∧ vec c' = xorBlock (vec c) data := by
  have hr : ∀ lo, lo + 4 ≤ data.length → rd data lo = pure (BitVec.ofNat 32 (leNat ((data.drop lo).take 4))) :=
    fun lo hlo => Bytes.read32_slice hlo
  obtain ⟨x0, x1, x2, x3, x4, x5, x6, x7, x8, x9, xa, xb, xc, xd, xe, xf, xg, xh, xi, xj, xk, xl, xm, xn, xo, xp, xq, xr, xs, xt, xu, xv⟩ := c
  rw [input_block_nf]
  simp only [hr 0 (by omega), hr 4 (by omega), hr 8 (by omega), hr 12 (by omega), hr 16 (by omega), hr 20 (by omega),
    hr 24 (by omega), hr 28 (by omega), pure_bind]
  refine ⟨_, rfl, ?_⟩
  unfold xorBlock vec
  rw [ofFn32]
  rfl

open Proofs.Lyra2 (Post.triv slice_post)

theorem read32_post (s : List U8) : (read_u32_le s).Post (fun _ => True) := by
  by_cases h : 4 ≤ s.length
  · rw [Bytes.read32_ok h]; exact .pure trivial
  · exact .inl (Bytes.read32_panics (by omega))

theorem rd_post (data : List U8) (lo : Nat) : (rd data lo).Post (fun _ => True) :=
  Post.triv (slice_post _ _ _) fun s => read32_post s

theorem input_block_panics {data : List U8} (h : data.length < 32) (c : Code) : (input_block data c).Panics := by
  apply Post.panics
  obtain ⟨x0, x1, x2, x3, x4, x5, x6, x7, x8, x9, xa, xb, xc, xd, xe, xf, xg, xh, xi, xj, xk, xl, xm, xn, xo, xp, xq, xr, xs, xt, xu, xv⟩ := c
  rw [input_block_nf]
  iterate 7 refine Post.triv (rd_post _ _) fun _ => ?_
  unfold rd
  rw [Bytes.slice_panics (by omega)]
  exact .throw

/-- Only the first 32 bytes are read. -/
theorem input_block_take {data : List U8} (h : 32 ≤ data.length) (c : Code) : input_block data c = input_block (data.take 32) c := by
  have : ∀ lo, lo + 4 ≤ 32 → rd data lo = rd (data.take 32) lo := by
    intro lo h2
    unfold rd
    rw [Bytes.slice_ok (by omega) (by omega), Bytes.slice_ok (by omega) (by rw [List.length_take]; omega), List.drop_take,
      List.take_take, Nat.min_eq_left (by omega)]
  obtain ⟨x0, x1, x2, x3, x4, x5, x6, x7, x8, x9, xa, xb, xc, xd, xe, xf, xg, xh, xi, xj, xk, xl, xm, xn, xo, xp, xq, xr, xs, xt, xu, xv⟩ := c
  rw [input_block_nf, input_block_nf, this 0 (by omega), this 4 (by omega), this 8 (by omega), this 12 (by omega), this 16 (by omega),
    this 20 (by omega), this 24 (by omega), this 28 (by omega)]

/-- The padding block of a message of 32 bytes. -/
def padBlock : List U8 := 0x80 :: List.replicate 31 0

theorem chunks_pad {msg : List Byte} (h : msg.length = 32) : chunks 32 (pad msg) = [msg, padBlock] := by
  have hl : (pad msg).length = 64 := by simp [pad, h]
  have e : pad msg = msg ++ padBlock := by
    unfold pad
    rw [h, List.append_assoc]
    rfl
  unfold chunks
  rw [hl, e]
  show [((msg ++ padBlock).drop 0).take 32, ((msg ++ padBlock).drop 32).take 32] = _
  rw [List.drop_zero, List.take_append_of_le_length (by omega), List.take_of_length_le (by omega), List.drop_append_of_le_length (by omega),
    List.drop_of_length_le (by omega)]
  rfl

theorem set31 (c : Code) : vec { c with xv := c.xv ^^^ 1 } = (vec c).set 31 ((vec c)[31] ^^^ 1) := rfl

theorem finalState_ok {data : List U8} (h : data.length = 32) :
    ∃ c, Model.CubeHash.finalState data = pure c ∧ vec c = Spec.CubeHash.finalState data := by
  obtain ⟨c1, h1, e1⟩ := input_block_ok (show 32 ≤ data.length by omega) new_cube_hash
  obtain ⟨c2, h2, e2⟩ := input_block_ok (data := padBlock) (by decide) (sixteen_rounds c1)
  refine ⟨finalLoop 10 { (sixteen_rounds c2) with xv := (sixteen_rounds c2).xv ^^^ 1 }, ?_, ?_⟩
  · unfold Model.CubeHash.finalState
    rw [show ((List.replicate 32 (0 : U8)).set 0 0x80) = padBlock by rfl]
    simp only [h1, pure_bind, h2]
  · rw [finalLoop_eq, set31, sixteen_eq, e2, sixteen_eq, e1, iv_eq]
    unfold Spec.CubeHash.finalState
    rw [chunks_pad h]
    simp only [List.foldl_cons, List.foldl_nil]

theorem finalState_panics {data : List U8} (h : data.length < 32) : (Model.CubeHash.finalState data).Panics := by
  unfold Model.CubeHash.finalState
  exact Panics.bind (input_block_panics h _)

theorem finalState_take {data : List U8} (h : 32 ≤ data.length) :
    Model.CubeHash.finalState data = Model.CubeHash.finalState (data.take 32) := by
  unfold Model.CubeHash.finalState
  dsimp only
  rw [input_block_take h]

theorem sum_ok {data : List U8} (h : data.length = 32) : Model.CubeHash.sum data = pure (Spec.CubeHash.hash data) := by
  obtain ⟨c, h1, e1⟩ := finalState_ok h
  unfold Model.CubeHash.sum Spec.CubeHash.hash
  rw [h1, pure_bind, ← e1]
  refine congrArg pure ?_
  simp only [Bytes.toLeBytes32_eq]
  rfl

theorem hash_length (data : List U8) : (Spec.CubeHash.hash data).length = 32 := by
  unfold Spec.CubeHash.hash
  rw [List.length_flatMap]
  have : (List.map (fun a : W => (leBytes 4 a.toNat).length) ((Spec.CubeHash.finalState data).toList.take 8)) = List.replicate 8 4 := by
    rw [List.eq_replicate_iff]
    simp [Bytes.leBytes_length]
  rw [this]
  rfl

/-! ## Injectivity -/

theorem bit_flip (n : Fin 32) : bit (flip n 4) 4 = !bit n 4 := by revert n; decide
theorem bit_flip' (n : Fin 32) (b : Fin 5) (h : b ≠ 4) : bit (flip n b) 4 = bit n 4 := by revert n b; decide
theorem flip_flip (n : Fin 32) (b : Fin 5) : flip (flip n b) b = n := by revert n b; decide

theorem ofFn_get (f : Fin 32 → W) (n : Fin 32) : (Vector.ofFn f)[n] = f n := by simp

theorem ext32 {x y : State} (h : ∀ n : Fin 32, x[n] = y[n]) : x = y := by
  apply Vector.ext
  intro i hi
  exact h ⟨i, hi⟩

theorem addHalf_inj : Function.Injective addHalf := by
  intro x y h
  have h : ∀ n : Fin 32, (addHalf x)[n] = (addHalf y)[n] := fun n => by rw [h]
  unfold addHalf at h
  simp only [ofFn_get] at h
  have h0 : ∀ n : Fin 32, bit n 4 = false → x[n] = y[n] := fun n hn => by simpa [hn] using h n
  refine ext32 fun n => ?_
  cases hn : bit n 4
  · exact h0 n hn
  · have h1 := h n
    rw [if_pos hn, if_pos hn, h0 (flip n 4) (by rw [bit_flip, hn]; rfl)] at h1
    exact BitVec.add_right_inj _ |>.mp h1

theorem rotateLeft_inj (a b : W) {r : Nat} (h : a.rotateLeft r = b.rotateLeft r) : a = b := by
  apply BitVec.eq_of_getLsbD_eq
  intro i hi
  have := congrArg (fun v : W => v.getLsbD ((i + r) % 32)) h
  simp only [BitVec.getLsbD_rotateLeft] at this
  have hr : r % 32 < 32 := Nat.mod_lt _ (by decide)
  by_cases hc : (i + r) % 32 < r % 32
  · simp only [hc, decide_true, cond_true] at this
    rwa [show 32 - r % 32 + (i + r) % 32 = i by omega] at this
  · have hlt : (i + r) % 32 < 32 := Nat.mod_lt _ (by decide)
    simp only [hc, decide_false, cond_false, hlt, decide_true, Bool.true_and] at this
    rwa [show (i + r) % 32 - r % 32 = i by omega] at this

theorem rotHalf_inj (r : Nat) : Function.Injective (rotHalf r) := by
  intro x y h
  have h : ∀ n : Fin 32, (rotHalf r x)[n] = (rotHalf r y)[n] := fun n => by rw [h]
  unfold rotHalf at h
  simp only [ofFn_get] at h
  refine ext32 fun n => ?_
  have h1 := h n
  cases hn : bit n 4
  · simp only [hn] at h1; exact rotateLeft_inj _ _ h1
  · simp only [hn] at h1; exact h1

theorem xorHalf_inj : Function.Injective xorHalf := by
  intro x y h
  have h : ∀ n : Fin 32, (xorHalf x)[n] = (xorHalf y)[n] := fun n => by rw [h]
  unfold xorHalf at h
  simp only [ofFn_get] at h
  have h0 : ∀ n : Fin 32, bit n 4 = true → x[n] = y[n] := fun n hn => by simpa [hn] using h n
  refine ext32 fun n => ?_
  cases hn : bit n 4
  · have h1 := h n
    rw [hn, if_neg (by decide), if_neg (by decide), h0 (flip n 4) (by rw [bit_flip, hn]; rfl)] at h1
    have := congrArg (· ^^^ y[flip n 4]) h1
    simpa [BitVec.xor_assoc] using this
  · exact h0 n hn

theorem swapBit_inj (i : Bool) {b : Fin 5} (hb : b ≠ 4) : Function.Injective (swapBit i b) := by
  intro x y h
  have h : ∀ n : Fin 32, (swapBit i b x)[n] = (swapBit i b y)[n] := fun n => by rw [h]
  unfold swapBit at h
  simp only [ofFn_get] at h
  refine ext32 fun n => ?_
  by_cases hn : bit n 4 = i
  · have h1 := h (flip n b)
    rw [if_pos (by rw [bit_flip' n b hb]; exact hn), if_pos (by rw [bit_flip' n b hb]; exact hn)] at h1
    simpa only [flip_flip] using h1
  · have h1 := h n
    rwa [if_neg hn, if_neg hn] at h1

theorem round_inj : Function.Injective round := by
  intro x y h
  exact addHalf_inj (rotHalf_inj 7 (swapBit_inj false (by decide) (xorHalf_inj (swapBit_inj true (by decide) (addHalf_inj
    (rotHalf_inj 11 (swapBit_inj false (by decide) (xorHalf_inj (swapBit_inj true (by decide) h)))))))))

theorem rounds_inj (n : Nat) : Function.Injective (rounds n) := by
  induction n with
  | zero => exact fun x y h => h
  | succ n ih => exact fun x y h => round_inj (ih h)

theorem xorBlock_inj_left (b : List Byte) {x y : State} (h : xorBlock x b = xorBlock y b) : x = y := by
  have h : ∀ n : Fin 32, (xorBlock x b)[n] = (xorBlock y b)[n] := fun n => by rw [h]
  unfold xorBlock at h
  simp only [ofFn_get] at h
  refine ext32 fun n => ?_
  have h1 := h n
  split at h1
  · have := congrArg (· ^^^ BitVec.ofNat 32 (leNat ((b.drop (4 * n.val)).take 4))) h1
    simpa [BitVec.xor_assoc] using this
  · exact h1

theorem xorBlock_inj_right (x : State) {b b' : List Byte} (hb : b.length = 32) (hb' : b'.length = 32)
    (h : xorBlock x b = xorBlock x b') : b = b' := by
  have h : ∀ n : Fin 32, (xorBlock x b)[n] = (xorBlock x b')[n] := fun n => by rw [h]
  unfold xorBlock at h
  simp only [ofFn_get] at h
  have key : ∀ n, n < 8 → (b.drop (4 * n)).take 4 = (b'.drop (4 * n)).take 4 := by
    intro n hn
    have h1 := h ⟨n, by omega⟩
    rw [if_pos hn, if_pos hn] at h1
    have h2 := congrArg (x[(⟨n, by omega⟩ : Fin 32)] ^^^ ·) h1
    simp only [← BitVec.xor_assoc, BitVec.xor_self, BitVec.zero_xor] at h2
    have l1 : ((b.drop (4 * n)).take 4).length = 4 := by simp; omega
    have l2 : ((b'.drop (4 * n)).take 4).length = 4 := by simp; omega
    refine Bytes.leNat_inj (by rw [l1, l2]) ?_
    have b1 := Bytes.leNat_lt ((b.drop (4 * n)).take 4)
    have b2 := Bytes.leNat_lt ((b'.drop (4 * n)).take 4)
    rw [l1] at b1
    rw [l2] at b2
    have := congrArg BitVec.toNat h2
    rw [BitVec.toNat_ofNat, BitVec.toNat_ofNat] at this
    omega
  apply List.ext_getElem (by omega)
  intro i hi hi'
  have := congrArg (fun l : List Byte => l[i % 4]?) (key (i / 4) (by omega))
  simp only [List.getElem?_take, List.getElem?_drop] at this
  rw [if_pos (by omega), if_pos (by omega), show 4 * (i / 4) + i % 4 = i by omega, List.getElem?_eq_getElem hi,
    List.getElem?_eq_getElem hi'] at this
  exact Option.some.inj this

theorem set31_inj {x y : State} (h : x.set 31 (x[31] ^^^ 1) = y.set 31 (y[31] ^^^ 1)) : x = y := by
  refine ext32 fun n => ?_
  have h1 := congrArg (fun v : State => v[n]) h
  simp only [Fin.getElem_fin, Vector.getElem_set] at h1
  by_cases hn : 31 = n.val
  · simp only [← hn, if_true] at h1
    show x[n.val] = y[n.val]
    simp only [← hn]
    have := congrArg (· ^^^ (1 : W)) h1
    simpa [BitVec.xor_assoc] using this
  · rwa [if_neg hn, if_neg hn] at h1

theorem spec_finalState_inj {m m' : List Byte} (hm : m.length = 32) (hm' : m'.length = 32)
    (h : Spec.CubeHash.finalState m = Spec.CubeHash.finalState m') : m = m' := by
  unfold Spec.CubeHash.finalState at h
  rw [chunks_pad hm, chunks_pad hm'] at h
  have h1 := set31_inj (rounds_inj 160 h)
  have h2 := xorBlock_inj_left _ (rounds_inj 16 h1)
  exact xorBlock_inj_right _ hm hm' (rounds_inj 16 h2)

theorem vec_inj {c c' : Code} (h : vec c = vec c') : c = c' := by
  have h : ∀ n : Fin 32, (vec c)[n] = (vec c')[n] := fun n => by rw [h]
  apply Model.CubeHash.CubeHash.ext
  all_goals first
    | exact h 0 | exact h 1 | exact h 2 | exact h 3 | exact h 4 | exact h 5 | exact h 6 | exact h 7
    | exact h 8 | exact h 9 | exact h 10 | exact h 11 | exact h 12 | exact h 13 | exact h 14 | exact h 15
    | exact h 16 | exact h 17 | exact h 18 | exact h 19 | exact h 20 | exact h 21 | exact h 22 | exact h 23
    | exact h 24 | exact h 25 | exact h 26 | exact h 27 | exact h 28 | exact h 29 | exact h 30 | exact h 31

end Proofs.CubeHash
