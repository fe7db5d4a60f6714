import Verif.Proofs.SrcCols

/-! The source of the sponge functions of `lyra2` computes what `Model.Lyra2` says. -/

set_option linter.unusedSectionVars false

namespace Source
open Rust hiding isizeMax usizeAdd vecOf
open Model.Lyra2 hiding squeeze idx idxRev idxRow0 idxRow1Rev absorbSum xorRotW duplexRow duplexRowSetup duplexRow1
open Model.Target (usz isizeMax usizeAdd vecOf extend squeeze)
open Model.Utils

variable {u : Nat} [Width u] {p : Profile} {ext : String → Option (List U8 → List U8)} {d : Nat}

set_option maxRecDepth 10000

/-! ## Reading words -/

theorem call_read_u64_le (xs : List U8) : call crate ext u p (d + 1) "utils::read_u64_le" [.bytes xs] =
    (read_u64_le xs >>= fun x => pure (.u64 x)) := by
  rw [call_fn "utils::read_u64_le" utils.read_u64_le _ (by rfl)]
  run_src [runFn, utils.read_u64_le, read_u64_le]

theorem call_read_u32_le (xs : List U8) : call crate ext u p (d + 1) "utils::read_u32_le" [.bytes xs] =
    (read_u32_le xs >>= fun x => pure (.u32 x)) := by
  rw [call_fn "utils::read_u32_le" utils.read_u32_le _ (by rfl)]
  run_src [runFn, utils.read_u32_le, read_u32_le]

/-! ## A round of Blake2b -/

/-- The result of `g` as an array. -/
def gVec (a b c d : U64) : Vector U64 4 := #v[(g a b c d).1, (g a b c d).2.1, (g a b c d).2.2.1, (g a b c d).2.2.2]

/-- Five statements of `round_lyra`. -/
theorem exec_group (c : Ctx) (gName : String) (hg : gName ≠ "Vec::with_capacity")
    (hc : ∀ a b c' d', c.call gName [.u64 a, .u64 b, .u64 c', .u64 d'] = pure (.words64 (gVec a b c' d').toArray))
    (i j k l : Nat) (hi : i < 16) (hj : j < 16) (hk : k < 16) (hl : l < 16) (rest : List Stmt) (w : Vector U64 4) (v : State) :
    execBlock c (.assign (.var "abcd") (.call gName [.index (.var "v") (.lit i), .index (.var "v") (.lit j),
        .index (.var "v") (.lit k), .index (.var "v") (.lit l)]) ::
      .assign (.index (.var "v") (.lit i)) (.index (.var "abcd") (.lit 0)) ::
      .assign (.index (.var "v") (.lit j)) (.index (.var "abcd") (.lit 1)) ::
      .assign (.index (.var "v") (.lit k)) (.index (.var "abcd") (.lit 2)) ::
      .assign (.index (.var "v") (.lit l)) (.index (.var "abcd") (.lit 3)) :: rest)
      [("abcd", .words64 w.toArray), ("v", .words64 v.toArray)] =
    execBlock c rest [("abcd", .words64 (gVec v[i] v[j] v[k] v[l]).toArray), ("v", .words64 (gAt v ⟨i, hi⟩ ⟨j, hj⟩ ⟨k, hk⟩ ⟨l, hl⟩).toArray)] := by
  run_src [hc, hi, hj, hk, hl, if_neg hg, position_lit i (by omega), position_lit j (by omega), position_lit k (by omega),
    position_lit l (by omega)]
  rfl

/-- The first group declares the array. -/
theorem exec_group1 (c : Ctx) (gName : String) (hg : gName ≠ "Vec::with_capacity")
    (hc : ∀ a b c' d', c.call gName [.u64 a, .u64 b, .u64 c', .u64 d'] = pure (.words64 (gVec a b c' d').toArray)) (rest : List Stmt) (v : State) :
    execBlock c (.letVar "abcd" none (.call gName [.index (.var "v") (.lit 0), .index (.var "v") (.lit 4),
        .index (.var "v") (.lit 8), .index (.var "v") (.lit 12)]) :: rest) [("v", .words64 v.toArray)] =
      execBlock c (.assign (.var "abcd") (.call gName [.index (.var "v") (.lit 0), .index (.var "v") (.lit 4),
        .index (.var "v") (.lit 8), .index (.var "v") (.lit 12)]) :: rest)
        [("abcd", .words64 (#v[0, 0, 0, 0] : Vector U64 4).toArray), ("v", .words64 v.toArray)] := by
  run_src [hc, if_neg hg]

/-- Absorbing words: `s[w] ^= w[w]`. -/
theorem exec_absorbWord (c : Ctx) (k : Nat) (hk : k < 16) (s : State) (w : Array U64) :
    exec c (.assignOp .xor (.index (.var "s") (.lit k)) (.index (.var "w") (.lit k))) [("s", .words64 s.toArray), ("w", .words64 w)] =
      ((vget w k >>= fun x => pure (s.set k (s[k] ^^^ x))) >>= fun s' => pure (.next [("s", .words64 s'.toArray), ("w", .words64 w)])) := by
  run_src [hk, position_lit k (by omega)]

/-- A sequence that returns. -/
theorem bind_eq_pure {α β : Type} {m : Res α} {f : α → Res β} {b : β} (h : (m >>= f) = pure b) : ∃ a, m = pure a ∧ f a = pure b := by
  match m, h with
  | some (.ok a), h => exact ⟨a, rfl, h⟩

/-! ## Squeezing -/

theorem repeated_u8 (n : Nat) : repeated u (some (.vec .u8)) (.lit (0 : Nat)) n = (vecOf u 1 (0 : U8) n >>= fun xs => pure (.bytes xs.toList)) := by
  simp only [repeated, asInt_lit, ofLit_u8 0 (by decide), pure_bind, reserve, vecOf]
  unfold maxBytes isizeMax
  split
  · simp
  · rfl

theorem slice_length {α : Type} {s ys : List α} {n : Nat} (h : slice s 0 n = pure ys) : ys.length = n := by
  unfold slice at h
  split at h
  · rename_i h1
    rw [← Res.pure_inj h]
    simp
    omega
  · exact (Res.pure_ne_throw h.symm).elim

/-- `for _i in 0..BLOCKLENINT64 { tmp.extend_from_slice(&state[_i as usize].to_le_bytes()); }`. -/
def extendBody : List Stmt :=
  [.mutate (.var "tmp") "extend_from_slice" [.method (.index (.var "state") (.cast (.var "_i") .usize)) "to_le_bytes" []]]

theorem extend_bytes (xs ys : List U8) :
    applyMutator u "extend_from_slice" (.bytes xs) [.bytes ys] = (extend u xs ys >>= fun xs => pure (.bytes xs)) := by
  show (reserve u 1 (xs.length + ys.length) >>= fun _ => pure (Val.bytes (xs ++ ys))) = _
  unfold reserve extend
  rw [Nat.one_mul, show maxBytes u = isizeMax u from rfl]
  split
  · simp only [pure_bind]
  · rfl

theorem exec_mutate (c : Ctx) (x m : String) (args : List Expr) (env : Env) :
    exec c (.mutate (.var x) m args) env = (place c env (.var x) >>= fun pl => evalList c env args >>= fun vs =>
      readPlace env pl >>= fun old => applyMutator c.u m old vs >>= fun v => writePlace env pl v >>= fun env => pure (.next env)) := by
  rw [exec]
  intro l hi h
  cases h

/-- A `for` loop over `i64` from 0. -/
theorem exec_for_i64 {c : Ctx} {env : Env} {hi : Expr} {n : I64} (x : String) (body : List Stmt) (h : eval c env none hi = pure (.i64 n)) :
    exec c (.forIn x (.lit 0) hi false body) env =
      (forLoop 0 (irangeLen 0 n) (forBody c x (fun k => .i64 (BitVec.ofNat 64 k)) body) env >>= fun env => pure (.next env)) := by
  rw [exec, eval, h, asTy]
  · simp only [pure_bind, num_lit 0 (by decide), num_i64]
    have e1 : (n.toInt - ((0 : Nat) : Int) + (if false = true then 1 else 0)).toNat = irangeLen 0 n := by
      simp [irangeLen]
    rw [e1]
    have e2 : ∀ k : Nat, rangeVal (.lit ((0 : Nat) : Int)) (.i64 n) (((0 : Nat) : Int) + k) = .i64 (BitVec.ofNat 64 k) := by
      intro k
      simp [rangeVal]
    simp only [e2]
    rfl
  · simp

theorem two_pow_31_le : 2 ^ 31 ≤ isizeMax u + 1 := by
  have h1 := two_pow_32_le (u := u)
  have h2 := two_maxBytes (u := u)
  omega

theorem extend_small (xs ys : List U8) (h : xs.length + ys.length < 2 ^ 31) : extend u xs ys = pure (xs ++ ys) := by
  have := two_pow_31_le (u := u)
  unfold extend
  rw [if_pos (by omega)]

theorem reserve_small (size n : Nat) (h : size * n < 2 ^ 31) : reserve u size n = pure () := by
  have := two_pow_31_le (u := u)
  unfold reserve
  exact if_pos (show size * n ≤ isizeMax u by omega)

theorem extend_append (xs ys zs : List U8) : extend u xs (ys ++ zs) = (extend u xs ys >>= fun xs => extend u xs zs) := by
  unfold extend
  simp only [List.length_append]
  by_cases h : xs.length + ys.length ≤ isizeMax u
  · rw [if_pos h, pure_bind, List.length_append, Nat.add_assoc, List.append_assoc]
  · rw [if_neg h, if_neg (by omega)]
    rfl

/-- Adding the words one by one gives the bytes of the first words; the vector grows too large in both cases or in none. -/
theorem forLoop_extend (s : State) (n : Nat) (hn : n < 16) (tmp : List U8) :
    forLoop 0 (n + 1) (fun k tmp => vget s.toArray k >>= fun x => extend u tmp (toLeBytes64 x)) tmp =
      extend u tmp ((s.toList.take (n + 1)).flatMap toLeBytes64) := by
  have key : ∀ (n i : Nat) (tmp : List U8), i + n < 16 → forLoop i (n + 1) (fun k tmp => vget s.toArray k >>= fun x => extend u tmp (toLeBytes64 x)) tmp =
      extend u tmp (((s.toList.drop i).take (n + 1)).flatMap toLeBytes64) := by
    intro n
    induction n with
    | zero =>
      intro i tmp h
      have hi : i < 16 := by omega
      have hlen : i < s.toList.length := by simpa using hi
      unfold forLoop
      rw [vget_vec s i hi, pure_bind, List.drop_eq_getElem_cons hlen]
      simp [forLoop]
    | succ n ih =>
      intro i tmp h
      have hi : i < 16 := by omega
      have hlen : i < s.toList.length := by simpa using hi
      unfold forLoop
      rw [vget_vec s i hi, pure_bind, List.drop_eq_getElem_cons hlen, List.take_succ_cons, List.flatMap_cons, extend_append]
      refine congrArg₂ _ (by simp) ?_
      funext tmp
      exact ih (i + 1) tmp (by omega)
  have := key n 0 tmp (by omega)
  simpa using this

/-- The inner loop of `squeeze`. -/
theorem exec_extend {c : Ctx} (hu : c.u = u) {env : Env} {blk : String} {s : State} {tmp : List U8} (hblk : c.call blk [] = pure (.i64 12))
    (hs : Has env "state" (.words64 s.toArray)) (ht : Has env "tmp" (.bytes tmp)) :
    exec c (.forIn "_i" (.lit 0) (.const blk) false extendBody) env =
      (extend u tmp ((s.toList.take 12).flatMap toLeBytes64) >>= fun tmp => pure (.next (env.upd "tmp" (.bytes tmp)))) := by
  rw [exec_for_i64 (n := 12) "_i" extendBody (by rw [eval, hblk])]
  rw [show irangeLen 0 12 = 12 from rfl]
  have h0 : env = env.upd "tmp" (.bytes tmp) := (Env.upd_same ht).symm
  conv => lhs; rw [h0]
  rw [forLoop_map (fun tmp => env.upd "tmp" (.bytes tmp)) 0 12 (fun k tmp => vget s.toArray k >>= fun x => extend u tmp (toLeBytes64 x)) _ _ tmp]
  · rw [forLoop_extend s 11 (by omega)]
    simp only [bind_assoc, pure_bind]
  · intro k tmp _ hk
    refine forBody_next (f := fun tmp => env.upd "tmp" (.bytes tmp)) (fun _ => by rw [Env.length_upd, Env.length_upd]) ?_
    have hk' : (BitVec.ofNat 64 k).toInt = k := by
      rw [BitVec.toInt_eq_toNat_of_lt]
      · simp; omega
      · simp; omega
    have hs' : Env.get "state" (env.upd "tmp" (.bytes tmp)) = pure (.words64 s.toArray) := hs.upd_ne (by decide) _
    have ht' : Has (env.upd "tmp" (.bytes tmp)) "tmp" (.bytes tmp) := ht.upd_self _
    have ht'' : Env.get "tmp" (env.upd "tmp" (.bytes tmp)) = pure (.bytes tmp) := ht'
    have hkk : (BitVec.ofNat 64 k).toNat = k := by simp; omega
    have h2 := two_pow_32_le (u := u)
    have hku : usz u (BitVec.ofNat 64 k) = k := by
      unfold usz
      rw [hkk, Nat.mod_eq_of_lt (by omega)]
    run_src [extendBody, exec_mutate, hu, hs', ht'', ht'.set, extend_bytes, hku, Env.upd_upd]

/-- The body of the outer loop of `squeeze`. -/
def squeezeBody (blk bl : String) : List Stmt :=
  [.forIn "_i" (.lit 0) (.const blk) false extendBody,
    .mutate (.prefix (.var "out") (.cast (.var "output_size") .usize)) "clone_from_slice" [.prefix (.var "tmp") (.cast (.var "output_size") .usize)],
    .assign (.var "state") (.call bl [.var "state"])]

/-- The variables of `squeeze`. -/
def squeezeEnv (jmax : I64) (size : U64) (tmp out : List U8) (s : State) : Env :=
  [("jmax", .i64 jmax), ("_j", .lit 0), ("out", .bytes out), ("tmp", .bytes tmp), ("state", .words64 s.toArray), ("output_size", .u64 size)]

theorem exec_squeezeBody {c : Ctx} (hu : c.u = u) {blk bl : String} (hblk : c.call blk [] = pure (.i64 12)) (hext : bl ≠ "Vec::with_capacity")
    (hbl : ∀ s : State, c.call bl [.words64 s.toArray] = pure (.words64 (blake2b_lyra s).toArray))
    (jmax j : I64) (size : U64) (tmp out : List U8) (s : State) (hout : out.length = usz u size) :
    execBlock c (squeezeBody blk bl) (("_j", .i64 j) :: squeezeEnv jmax size tmp out s) =
      (extend u tmp ((s.toList.take 12).flatMap toLeBytes64) >>= fun tmp => slice tmp 0 (usz u size) >>= fun out =>
        pure (.next (("_j", .i64 j) :: squeezeEnv jmax size tmp out (blake2b_lyra s)))) := by
  unfold squeezeBody
  rw [execBlock_next (exec_extend hu hblk (by rfl) (by rfl))]
  refine bind_congr fun tmp' => ?_
  have h : Env.upd "tmp" (.bytes tmp') (("_j", Val.i64 j) :: squeezeEnv jmax size tmp out s) = ("_j", .i64 j) :: squeezeEnv jmax size tmp' out s := by rfl
  rw [h]
  have h2 : slice out 0 (usz u size) = pure out := by
    unfold slice
    rw [if_pos ⟨by omega, by omega⟩]
    simp [← hout]
  run_src [squeezeEnv, part, hu, h2, hbl, if_neg hext]
  refine bind_congr_pure fun ys hys => ?_
  have hlen : ys.length = usz u size := slice_length hys
  have h3 : overwrite (.bytes out) (usz u size) (.bytes ys) = pure (.bytes ys) := by
    simp only [overwrite, hlen, ↓reduceIte]
    rw [← hout, List.drop_length, List.append_nil]
  rw [h3, pure_bind, likeOld_bytes, pure_bind]

/-- The loop of `squeeze`. -/
theorem exec_squeezeLoop {c : Ctx} (hu : c.u = u) {blk bl : String} (hblk : c.call blk [] = pure (.i64 12)) (hext : bl ≠ "Vec::with_capacity")
    (hbl : ∀ s : State, c.call bl [.words64 s.toArray] = pure (.words64 (blake2b_lyra s).toArray))
    (jmax : I64) (size : U64) (out : List U8) (s : State) (hout : out.length = usz u size) :
    exec c (.forIn "_j" (.lit 0) (.var "jmax") false (squeezeBody blk bl)) (squeezeEnv jmax size [] out s) =
      (forLoop 0 (irangeLen 0 jmax)
        (fun _ (r : List U8 × List U8 × State) => do
          let tmp ← extend u r.1 ((r.2.2.toList.take 12).flatMap toLeBytes64)
          let out ← slice tmp 0 (usz u size)
          let state := blake2b_lyra r.2.2
          pure (tmp, out, state)) ([], out, s) >>= fun r => pure (.next (squeezeEnv jmax size r.1 r.2.1 r.2.2))) := by
  rw [exec_for_i64 (n := jmax) "_j" _ (by rfl)]
  rw [forLoop_map_inv (fun r : List U8 × List U8 × State => squeezeEnv jmax size r.1 r.2.1 r.2.2) (fun _ r => r.2.1.length = usz u size)
    0 (irangeLen 0 jmax) (fun _ (r : List U8 × List U8 × State) => do
          let tmp ← extend u r.1 ((r.2.2.toList.take 12).flatMap toLeBytes64)
          let out ← slice tmp 0 (usz u size)
          let state := blake2b_lyra r.2.2
          pure (tmp, out, state)) _ _ _ ([], out, s) hout]
  · simp only [bind_assoc, pure_bind]
  · intro k r hr _ _
    refine forBody_next (f := fun r : List U8 × List U8 × State => squeezeEnv jmax size r.1 r.2.1 r.2.2) (fun _ => rfl) ?_
    rw [exec_squeezeBody hu hblk hext hbl jmax _ size _ _ _ hr]
    simp only [bind_assoc, pure_bind]
  · intro k r r' hr _ _ h
    obtain ⟨tmp, _, h⟩ := bind_eq_pure h
    obtain ⟨out, h2, h⟩ := bind_eq_pure h
    rw [← Res.pure_inj h]
    exact slice_length h2

/-! ## The functions -/

theorem call_BLOCKLENINT64 : call crate ext u p (d + 1) "lyra2::BLOCKLENINT64" [] = pure (.i64 BLOCKLENINT64) := by
  rw [call_fn "lyra2::BLOCKLENINT64" lyra2.BLOCKLENINT64 _ (by rfl)]
  run_src [runFn, lyra2.BLOCKLENINT64]
  rfl

theorem call_BLOCKLENBYTES : call crate ext u p (d + 2) "lyra2::BLOCKLENBYTES" [] = pure (.i64 BLOCKLENBYTES) := by
  rw [call_fn "lyra2::BLOCKLENBYTES" lyra2.BLOCKLENBYTES _ (by rfl)]
  run_src [runFn, lyra2.BLOCKLENBYTES, call_BLOCKLENINT64]
  rw [show imul p BLOCKLENINT64 8#64 = pure 96 from by cases p <;> rfl]
  rfl

theorem call_SAFEINT64 : call crate ext u p (d + 1) "lyra2::BLOCKLENBLAKE2SAFEINT64" [] = pure (.i64 BLOCKLENBLAKE2SAFEINT64) := by
  rw [call_fn "lyra2::BLOCKLENBLAKE2SAFEINT64" lyra2.BLOCKLENBLAKE2SAFEINT64 _ (by rfl)]
  run_src [runFn, lyra2.BLOCKLENBLAKE2SAFEINT64]
  rfl

theorem call_SAFEBYTES : call crate ext u p (d + 2) "lyra2::BLOCKLENBLAKE2SAFEBYTES" [] = pure (.i64 BLOCKLENBLAKE2SAFEBYTES) := by
  rw [call_fn "lyra2::BLOCKLENBLAKE2SAFEBYTES" lyra2.BLOCKLENBLAKE2SAFEBYTES _ (by rfl)]
  run_src [runFn, lyra2.BLOCKLENBLAKE2SAFEBYTES, call_SAFEINT64]
  rw [show imul p BLOCKLENBLAKE2SAFEINT64 8#64 = pure 64 from by cases p <;> rfl]
  rfl

theorem call_BLAKE2BIV : call crate ext u p (d + 1) "lyra2::BLAKE2BIV" [] = pure (.words64 BLAKE2BIV.toArray) := by
  rw [call_fn "lyra2::BLAKE2BIV" lyra2.BLAKE2BIV _ (by rfl)]
  run_src [runFn, lyra2.BLAKE2BIV]
  rfl

theorem call_rotr64 (w : U64) (c : Nat) (h0 : 0 < c) (h : c < 64) :
    call crate ext u p (d + 1) "lyra2::rotr64" [.u64 w, .lit c] = pure (.u64 (rotr64 w c)) := by
  rw [call_fn "lyra2::rotr64" lyra2.rotr64 _ (by rfl)]
  have hc : (BitVec.ofNat 8 c).toNat = c := by simp; omega
  have hc' : (BitVec.ofNat 8 64 - BitVec.ofNat 8 c).toNat = 64 - c := by rw [BitVec.toNat_sub, hc]; simp; omega
  run_src [runFn, lyra2.rotr64, ofLit_u8 c (by omega)]
  rw [shr_u64_u8 w _ (by omega), sub_u8 _ _ (by rw [hc]; simp; omega), pure_bind, pure_bind, shl_u64_u8 w _ (by omega), hc, hc']
  rfl

theorem call_g (a b c d' : U64) : call crate ext u p (d + 2) "lyra2::g" [.u64 a, .u64 b, .u64 c, .u64 d'] =
    pure (.words64 (gVec a b c d').toArray) := by
  rw [call_fn "lyra2::g" lyra2.g _ (by rfl)]
  obtain ⟨v, hv⟩ : ∃ v : Vector U64 4, [a, b, c, d'].toArray = v.toArray ∧ v = #v[a, b, c, d'] := ⟨_, rfl, rfl⟩
  run_src [runFn, lyra2.g, hv.1, call_rotr64]
  rw [hv.2]
  rfl

theorem call_round (v : State) : call crate ext u p (d + 3) "lyra2::round_lyra" [.words64 v.toArray] = pure (.words64 (round_lyra v).toArray) := by
  rw [call_fn "lyra2::round_lyra" lyra2.round_lyra _ (by rfl)]
  have hc : ∀ a b c' d', (ctx ext u p (d + 2)).call "lyra2::g" [.u64 a, .u64 b, .u64 c', .u64 d'] = pure (.words64 (gVec a b c' d').toArray) :=
    call_g
  simp only [runFn, lyra2.round_lyra, bindArgs, asTy, pure_bind]
  rw [exec_group1 _ _ (by decide) hc]
  iterate 8 rw [exec_group _ _ (by decide) hc _ _ _ _ (by decide) (by decide) (by decide) (by decide)]
  run_src
  rfl

theorem call_blake2b (v : State) : call crate ext u p (d + 4) "lyra2::blake2b_lyra" [.words64 v.toArray] = pure (.words64 (blake2b_lyra v).toArray) := by
  rw [call_fn "lyra2::blake2b_lyra" lyra2.blake2b_lyra _ (by rfl)]
  run_src [runFn, lyra2.blake2b_lyra, call_round, blake2b_lyra]

theorem call_reduced (v : State) :
    call crate ext u p (d + 4) "lyra2::reduced_blake2b_lyra" [.words64 v.toArray] = pure (.words64 (reduced_blake2b_lyra v).toArray) := by
  rw [call_fn "lyra2::reduced_blake2b_lyra" lyra2.reduced_blake2b_lyra _ (by rfl)]
  run_src [runFn, lyra2.reduced_blake2b_lyra, call_round, reduced_blake2b_lyra]

theorem call_init_state : call crate ext u p (d + 2) "lyra2::init_state" [] = pure (.words64 init_state.toArray) := by
  rw [call_fn "lyra2::init_state" lyra2.init_state _ (by rfl)]
  run_src [runFn, lyra2.init_state, call_BLAKE2BIV]
  rfl

theorem call_absorb_block (s : State) (w : Array U64) : call crate ext u p (d + 5) "lyra2::absorb_block" [.words64 s.toArray, .words64 w] =
    (absorb_block s w >>= fun s' => pure (.words64 s'.toArray)) := by
  rw [call_fn "lyra2::absorb_block" lyra2.absorb_block _ (by rfl)]
  have h : lyra2.absorb_block.body = (List.finRange 12).map (fun k => .assignOp .xor (.index (.var "s") (.lit k)) (.index (.var "w") (.lit k))) ++
    [.assign (.var "s") (.call "lyra2::blake2b_lyra" [.var "s"])] := by rfl
  simp only [runFn, h]
  simp only [lyra2.absorb_block, bindArgs, asTy, pure_bind]
  rw [execBlock_unroll _ (fun k s => vget w k >>= fun x => pure (s.set k (s[k] ^^^ x))) (fun s : State => [("s", .words64 s.toArray), ("w", .words64 w)])
    (fun k s => exec_absorbWord _ k (by omega) s w)]
  run_src [call_blake2b, absorb_block]

theorem call_absorb_safe (s : State) (w : Array U64) :
    call crate ext u p (d + 5) "lyra2::absorb_block_blake2_safe" [.words64 s.toArray, .words64 w] =
    (absorb_block_blake2_safe s w >>= fun s' => pure (.words64 s'.toArray)) := by
  rw [call_fn "lyra2::absorb_block_blake2_safe" lyra2.absorb_block_blake2_safe _ (by rfl)]
  have h : lyra2.absorb_block_blake2_safe.body = (List.finRange 8).map (fun k => .assignOp .xor (.index (.var "s") (.lit k)) (.index (.var "w") (.lit k))) ++
    [.assign (.var "s") (.call "lyra2::blake2b_lyra" [.var "s"])] := by rfl
  simp only [runFn, h]
  simp only [lyra2.absorb_block_blake2_safe, bindArgs, asTy, pure_bind]
  rw [execBlock_map (List.finRange 8) _ (fun (k : Fin 8) (s : State) => vget w k >>= fun x => pure (s.set k (s[k] ^^^ x))) (fun s : State => [("s", .words64 s.toArray), ("w", .words64 w)])
    (fun k s => exec_absorbWord _ k (by omega) s w)]
  run_src [call_blake2b, absorb_block_blake2_safe]

theorem call_squeeze (s : State) (size : U64) : call crate ext u p (d + 5) "lyra2::squeeze" [.words64 s.toArray, .u64 size] =
    (squeeze u p s size >>= fun xs => pure (.bytes xs)) := by
  rw [call_fn "lyra2::squeeze" lyra2.squeeze _ (by rfl)]
  have hb : lyra2.squeeze.block2 = squeezeBody "lyra2::BLOCKLENINT64" "lyra2::blake2b_lyra" := by rfl
  have hl : ∀ rest : List Stmt, execBlock (ctx ext u p (d + 4)) (lyra2.squeeze.body.take 4 ++ rest)
      [("state", .words64 s.toArray), ("output_size", .u64 size)] =
      (vecOf u 1 (0 : U8) (usz u size) >>= fun out => iadd p (idiv size BLOCKLENBYTES) 1 >>= fun jmax =>
        execBlock (ctx ext u p (d + 4)) rest (squeezeEnv jmax size [] out.toList s)) := by
    intro rest
    rw [show lyra2.squeeze.body.take 4 ++ rest = _ :: _ :: _ :: _ :: rest from rfl]
    have : 0 < BLOCKLENBYTES.toInt := by decide
    run_src [repeated_u8, call_BLOCKLENBYTES, this]
    rfl
  have hs : lyra2.squeeze.body = lyra2.squeeze.body.take 4 ++
    [.forIn "_j" (.lit 0) (.var "jmax") false (squeezeBody "lyra2::BLOCKLENINT64" "lyra2::blake2b_lyra")] := by rfl
  unfold runFn
  rw [show bindArgs lyra2.squeeze.params [.words64 s.toArray, .u64 size] = pure [("state", .words64 s.toArray), ("output_size", .u64 size)] from rfl,
    pure_bind, hs, hl, squeeze]
  simp only [bind_assoc]
  refine bind_congr_pure fun out hout => ?_
  refine bind_congr fun jmax => ?_
  have hlen : out.toList.length = usz u size := by
    unfold vecOf at hout
    split at hout
    · rw [← Res.pure_inj hout]; simp
    · exact (Res.pure_ne_throw hout.symm).elim
  rw [execBlock_cons, exec_squeezeLoop rfl call_BLOCKLENINT64 (by decide) call_blake2b jmax size out.toList s hlen]
  simp only [bind_assoc, pure_bind, execBlock]
  rfl

end Source
