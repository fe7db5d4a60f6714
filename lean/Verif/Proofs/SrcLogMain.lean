import Verif.Proofs.SrcLogSponge

/-! What is seen of the first phases of `lyra2` and `lyra2mod`, as they stand in the source. -/

set_option linter.unusedSectionVars false

namespace Source
open Rust
open Model.Log (Logged LoggedOf quiet emit)
open Model.Lyra2 (State Matrix SetupVars WanderVars BLOCKLENINT64 BLOCKLENBYTES BLOCKLENBLAKE2SAFEINT64 BLOCKLENBLAKE2SAFEBYTES init_state)
open Model.Utils
open Proofs.Target

/-- The items mean what the model says, and what is seen of them is what it says. -/
structure MainSeen (c : LCtx Event) (c' : Ctx) (u : Nat) (p : Profile) (N : Names) : Prop extends LyraSeen c c' u p N.blk N.red where
  main : MainCtx c' u p N
  quietSafe64 : quietFn N.safe64 = true
  quietSafeBytes : quietFn N.safeBytes = true
  quietInit : quietFn N.init = true
  seenSafe : seen (.call N.safe) = []
  seenAbsorb : seen (.call N.absorb) = []
  seenSqueeze : seen (.call N.squeeze) = []
  callSafe : ∀ (s : State) (w : Array U64), c.call N.safe [.words64 s.toArray, .words64 w] =
    (Model.Log.absorb_block_blake2_safe s w >>= fun s' => pure (.words64 s'.toArray))
  callAbsorb : ∀ (s : State) (w : Array U64), c.call N.absorb [.words64 s.toArray, .words64 w] =
    (Model.Log.absorb_block s w >>= fun s' => pure (.words64 s'.toArray))
  callSqueeze : ∀ (s : State) (k : U64), c.call N.squeeze [.words64 s.toArray, .u64 k] = (Model.LogTarget.squeeze u p s k >>= fun xs => pure (.bytes xs))

variable {c : LCtx Event} {c' : Ctx} {u : Nat} [Width u] {p : Profile} {N : Names} {F : Frame}

/-! ## Writing the input -/

/-- `whole_matrix[ie] = e`. -/
theorem execL_setWord {α : Type} (hc : Seen c c') {env : Env} {ie e : Expr} {j : Nat} {m : Matrix} {x : Res α} {g : α → Val} {h : α → U64}
    (he : hushE quietVar quietFn e = true) (hi : hushE quietVar quietFn ie = true) (hv : eval c' env none e = (x >>= fun a => pure (g a)))
    (hp : place c' env (.index (.var "whole_matrix") ie) = pure ("whole_matrix", [.index j])) (hg : ∀ a, asInt .u64 (g a) = pure (.u64 (h a)))
    (hm : Has env "whole_matrix" (.words64 m)) :
    execL c (.assign (.index (.var "whole_matrix") ie) e) env =
      ((quiet x >>= fun a => Model.Log.put m j (h a)) >>= fun m' => pure (.next (env.upd "whole_matrix" (.words64 m')))) := by
  rw [execL, evalL_hush hc.toHush env none e he, hv, placeL_hush hc.toHush env _ (by simp [hushP, hi]), hp]
  simp only [quiet_bind, quiet_pure, bind_assoc, pure_bind]
  refine bind_congr fun a => ?_
  rw [show writeNotes (.index (.var "whole_matrix") ie) ("whole_matrix", [.index j]) = [.write "whole_matrix" (isComputed ie) j] from rfl, note_write hc.obs,
    writePlace_index hm, setItem_asInt m j (g a) (h a) (hg a), Model.Log.put]
  simp only [quiet_bind, quiet_pure, bind_assoc, pure_bind]

/-- A `for` loop over `usize` from 0. -/
theorem execL_for_usize (hc : Seen c c') {env : Env} {hi : Expr} {n : BitVec 64} (x : String) (body : List Stmt) (hh : hushE quietVar quietFn hi = true)
    (h : eval c' env none hi = pure (.usize n)) :
    execL c (.forIn x (.lit 0) hi false body) env =
      (Model.Log.forLoop 0 n.toNat (forBodyL c x (fun k => .usize (BitVec.ofNat 64 k)) body) env >>= fun env => pure (.next env)) := by
  rw [execL, evalL_hush hc.toHush env none _ (by rfl), evalL_hush hc.toHush env none _ hh, eval, h, asTy]
  · simp only [quiet_pure, pure_bind, num_lit 0 (by decide), num_usize, note_one _ (hc.range _)]
    have e1 : ((n.toNat : Int) - ((0 : Nat) : Int) + (if false = true then 1 else 0)).toNat = n.toNat := by simp
    rw [e1]
    have e2 : ∀ k : Nat, rangeVal (.lit ((0 : Nat) : Int)) (.usize n) (((0 : Nat) : Int) + k) = .usize (BitVec.ofNat 64 k) := by
      intro k
      simp [rangeVal]
    simp only [e2]
    rfl
  · simp

theorem execL_words (hc : MainSeen c c' u p N) {env : Env} {x : String} {bytes : List U8} {at_ : Nat} {m : Matrix} (hx : Has env x (.bytes bytes))
    (hm : Has env "whole_matrix" (.words64 m)) (hp : Has env "ptr_byte" (.usize (BitVec.ofNat 64 at_)))
    (hx1 : x ≠ "j") (hx2 : x ≠ "start") (hx3 : x ≠ "end") (hx4 : x ≠ "whole_matrix")
    (hb : bytes.length ≤ Model.Target.isizeMax u) (hat : at_ ≤ Model.Target.isizeMax u) :
    execL c (wordsLoop x) env = (Model.Log.writeWords bytes at_ m >>= fun m' => pure (.next (env.upd "whole_matrix" (.words64 m')))) := by
  have hu1 := two_pow_32_le (u := u)
  have hu2 := two_pow_le_64 (u := u)
  have hu3 := two_maxBytes (u := u)
  have hlen : (BitVec.ofNat 64 bytes.length).toNat = bytes.length := by
    simp
    omega
  have hn : eval c' env none (.bin .div (.method (.var x) "len" []) (.lit 8)) = pure (.usize (BitVec.ofNat 64 (bytes.length / 8))) := by
    have hx' := hx
    unfold Has at hx'
    have hd := div_usize_8 (u := u) (p := p) (BitVec.ofNat 64 bytes.length) (by omega)
    run_src [hx', hc.main.width, hc.main.prof, hd, hlen]
  unfold wordsLoop
  rw [execL_for_usize hc.toSeen "j" _ (by rfl) hn]
  have hn2 : (BitVec.ofNat 64 (bytes.length / 8)).toNat = bytes.length / 8 := by
    simp
    omega
  rw [hn2, Model.Log.writeWords]
  have h0 : env = env.upd "whole_matrix" (.words64 m) := (Env.upd_same hm).symm
  conv => lhs; rw [h0]
  rw [forLoopL_map (fun m => env.upd "whole_matrix" (.words64 m)) 0 _ (fun j m => do
    let start := 8 * j
    let stop := start + 8
    let b ← quiet (slice bytes start stop)
    let x ← quiet (read_u64_le b)
    Model.Log.put m (at_ + j) x) _ _ m]
  · simp only [bind_assoc, pure_bind]
  · intro k m _ hk
    refine forBodyL_scope (f := fun m => env.upd "whole_matrix" (.words64 m)) (fun _ => [("end", .usize (BitVec.ofNat 64 (8 * k + 8))),
      ("start", .usize (BitVec.ofNat 64 (8 * k))), ("j", .usize (BitVec.ofNat 64 k))]) (fun _ => by rw [Env.length_upd, Env.length_upd]) ?_
    have hm1 : Has (env.upd "whole_matrix" (.words64 m)) "whole_matrix" (.words64 m) := hm.upd_self _
    have hx' : Env.get x (env.upd "whole_matrix" (.words64 m)) = pure (.bytes bytes) := hx.upd_ne hx4 _
    have hp' : Env.get "ptr_byte" (env.upd "whole_matrix" (.words64 m)) = pure (.usize (BitVec.ofNat 64 at_)) := hp.upd_ne (by decide) _
    have hk1 : (BitVec.ofNat 64 k).toNat = k := by simp; omega
    have hk2 : (BitVec.ofNat 64 (8 * k)).toNat = 8 * k := by simp; omega
    have hk3 : (BitVec.ofNat 64 (8 * k + 8)).toNat = 8 * k + 8 := by simp; omega
    have hk4 : (BitVec.ofNat 64 at_).toNat = at_ := by simp; omega
    have hk5 : (BitVec.ofNat 64 (at_ + k)).toNat = at_ + k := by simp; omega
    have h8 : (8#64).toNat = 8 := rfl
    have e1 : binOp u p .mul (.usize 8#64) (.usize (BitVec.ofNat 64 k)) = pure (.usize (BitVec.ofNat 64 (8 * k))) := by
      rw [mul_usize_lt (by rw [hk1, h8]; omega), hk1, h8]
    have e2 : Model.Target.usizeAdd u p (8 * k) 8 = pure (8 * k + 8) := usizeAdd_lt (by omega)
    have e3 : Model.Target.usizeAdd u p at_ k = pure (at_ + k) := usizeAdd_lt (by omega)
    have q := execBlockL_quiet hc.toSeen (a := [.letVar "start" none (.bin .mul (.lit 8) (.var "j")), .letVar "end" none (.bin .add (.var "start") (.lit 8))])
      (env := ("j", .usize (BitVec.ofNat 64 k)) :: env.upd "whole_matrix" (.words64 m)) (m := (pure () : Res Unit))
      (f := fun _ => ("end", .usize (BitVec.ofNat 64 (8 * k + 8))) :: ("start", .usize (BitVec.ofNat 64 (8 * k))) :: ("j", .usize (BitVec.ofNat 64 k)) ::
        env.upd "whole_matrix" (.words64 m)) (by rfl)
      (by run_src [hc.main.width, hc.main.prof, e1, hk2, h8, e2])
      [.assign (.index (.var "whole_matrix") (.bin .add (.var "ptr_byte") (.var "j")))
        (.call "utils::read_u64_le" [.slice (.var x) (.var "start") (.var "end")])]
    rw [show wordsBody x = [.letVar "start" none (.bin .mul (.lit 8) (.var "j")), .letVar "end" none (.bin .add (.var "start") (.lit 8))] ++
      [.assign (.index (.var "whole_matrix") (.bin .add (.var "ptr_byte") (.var "j")))
        (.call "utils::read_u64_le" [.slice (.var x) (.var "start") (.var "end")])] from rfl, q, quiet_pure, pure_bind]
    rw [execBlockL_next (execL_setWord hc.toSeen (j := at_ + k) (m := m) (x := slice bytes (8 * k) (8 * k + 8) >>= fun b => read_u64_le b) (g := fun a => .u64 a) (h := id)
      (by rfl) (by rfl) ?_ ?_ (fun _ => rfl) (((hm1.cons (by decide) _).cons (by decide) _).cons (by decide) _))]
    · simp only [quiet_bind, bind_assoc, execBlockL_nil, id]
      refine bind_congr fun b => bind_congr fun a => bind_congr fun m' => ?_
      rw [Env.upd_cons (by decide), Env.upd_cons (by decide), Env.upd_cons (by decide), Env.upd_upd]
      rfl
    · run_src [hx1, hx2, hx3, hx', hk2, hk3, part, hc.main.isRead]
    · run_src [hp', hc.main.width, hc.main.prof, hk1, hk4, hk5, e3]

theorem execL_setPtr (hc : Seen c c') {n : Nat} (hn : n < 2 ^ 64) {m : Matrix} {v : SetupVars} {e : Expr} {val : Val} {x : U64} (hh : hushE quietVar quietFn e = true)
    (he : eval c' (F.input (BitVec.ofNat 64 n) m v) none e = pure val) (hv : asInt .u64 val = pure (.u64 x)) :
    execL c (setPtr e) (F.input (BitVec.ofNat 64 n) m v) = (Model.Log.put m n x >>= fun m' => pure (.next (F.input (BitVec.ofNat 64 n) m' v))) := by
  have h : (BitVec.ofNat 64 n).toNat = n := by simp; omega
  have hpl : place c' (F.input (BitVec.ofNat 64 n) m v) (.index (.var "whole_matrix") (.var "ptr_byte")) = pure ("whole_matrix", [.index n]) := by
    run_src [Frame.input, h]
  rw [setPtr, execL_setWord hc (x := (pure () : Res Unit)) (g := fun _ => val) (h := fun _ => x) hh (by rfl) (by rw [he]; rfl) hpl (fun _ => hv) (by rfl),
    quiet_pure, pure_bind]
  rfl

/-- A statement of which nothing is seen. -/
theorem execBlockL_next_quiet (hc : Seen c c') {s : Stmt} {ss : List Stmt} {env env' : Env} (hs : hushS quietVar quietFn s = true)
    (h : exec c' s env = pure (.next env')) : execBlockL c (s :: ss) env = execBlockL c ss env' := by
  refine execBlockL_next_pure ?_
  rw [execL_hush hc.toHush s env hs, h, quiet_pure]

theorem execL_input (hc : MainSeen c c' u p N) (hp : F.pwd.length ≤ Model.Target.isizeMax u) (hs : F.salt.length ≤ Model.Target.isizeMax u) (rest : List Stmt) (m : Matrix) (v : SetupVars) :
    execBlockL c (inputStmts N ++ rest) (F.input 0 m v) =
      (Model.LogTarget.writeInput u p F.k F.pwd F.salt F.time_cost F.n_rows F.n_cols F.blocks m >>= fun m' => execBlockL c rest (F.input (F.lastPtr u) m' v)) := by
  have hu1 := two_pow_32_le (u := u)
  have hu2 := two_pow_le_64 (u := u)
  have hu3 := two_maxBytes (u := u)
  have hl : F.pwd.length / 8 ≤ Model.Target.isizeMax u := by omega
  unfold inputStmts
  simp only [List.cons_append, List.nil_append]
  rw [show (0 : BitVec 64) = BitVec.ofNat 64 0 from rfl]
  rw [execBlockL_next (execL_words hc (x := "pwd") (bytes := F.pwd) (at_ := 0) (m := m) (by rfl) (by rfl) (by rfl) (by decide) (by decide) (by decide)
    (by decide) hp (by omega))]
  rw [Model.LogTarget.writeInput, bind_assoc]
  refine bind_congr fun m => ?_
  rw [show Env.upd "whole_matrix" (.words64 m) (F.input (BitVec.ofNat 64 0) _ v) = F.input (BitVec.ofNat 64 0) m v from rfl]
  rw [execBlockL_next_quiet hc.toSeen (by rfl) (exec_lenPtr hc.main.width (x := "pwd") (bytes := F.pwd) hp (by omega) (by rfl))]
  rw [execBlockL_next (execL_words hc (x := "salt") (bytes := F.salt) (at_ := 0 + F.pwd.length / 8) (m := m) (by rfl) (by rfl) (by rfl) (by decide) (by decide) (by decide)
    (by decide) hs (by omega))]
  simp only [bind_assoc]
  refine bind_congr fun m => ?_
  rw [show Env.upd "whole_matrix" (.words64 m) (F.input (BitVec.ofNat 64 (0 + F.pwd.length / 8)) _ v) = F.input (BitVec.ofNat 64 (0 + F.pwd.length / 8)) m v from rfl]
  rw [execBlockL_next_quiet hc.toSeen (by rfl) (exec_lenPtr hc.main.width (x := "salt") (bytes := F.salt) hs (by omega) (by rfl))]
  have hn : 0 + F.pwd.length / 8 + F.salt.length / 8 + 8 < 2 ^ u := by omega
  generalize 0 + F.pwd.length / 8 + F.salt.length / 8 = n at hn ⊢
  rw [execBlockL_next (execL_setPtr hc.toSeen (val := .u64 F.k) (by omega) (by rfl) (by rfl) (by rfl))]
  refine bind_congr fun m => ?_
  rw [execBlockL_next_quiet hc.toSeen (by rfl) (exec_incPtr hc.main.width (by omega))]
  rw [execBlockL_next (execL_setPtr hc.toSeen (val := .u64 (BitVec.ofNat 64 F.pwd.length)) (by omega) (by rfl) (by run_src [Frame.input, Frame.outer, hc.main.width]) (by rfl))]
  refine bind_congr fun m => ?_
  rw [execBlockL_next_quiet hc.toSeen (by rfl) (exec_incPtr hc.main.width (by omega))]
  rw [execBlockL_next (execL_setPtr hc.toSeen (val := .u64 (BitVec.ofNat 64 F.salt.length)) (by omega) (by rfl) (by run_src [Frame.input, Frame.outer, hc.main.width]) (by rfl))]
  refine bind_congr fun m => ?_
  rw [execBlockL_next_quiet hc.toSeen (by rfl) (exec_incPtr hc.main.width (by omega))]
  rw [execBlockL_next (execL_setPtr hc.toSeen (val := .u64 F.time_cost) (by omega) (by rfl) (by rfl) (by rfl))]
  refine bind_congr fun m => ?_
  rw [execBlockL_next_quiet hc.toSeen (by rfl) (exec_incPtr hc.main.width (by omega))]
  rw [execBlockL_next (execL_setPtr hc.toSeen (val := .u64 F.n_rows) (by omega) (by rfl) (by rfl) (by rfl))]
  refine bind_congr fun m => ?_
  rw [execBlockL_next_quiet hc.toSeen (by rfl) (exec_incPtr hc.main.width (by omega))]
  rw [execBlockL_next (execL_setPtr hc.toSeen (val := .u64 F.n_cols) (by omega) (by rfl) (by rfl) (by rfl))]
  refine bind_congr fun m => ?_
  rw [execBlockL_next_quiet hc.toSeen (by rfl) (exec_incPtr hc.main.width (by omega))]
  rw [execBlockL_next (execL_setPtr hc.toSeen (val := .lit 128) (x := 0x80) (by omega) (by rfl) (by rfl) (by rfl))]
  refine bind_congr fun m => ?_
  have h8 : (0 : Int) < (8#64).toInt := by decide
  have q := execBlockL_quiet hc.toSeen
    (a := [.assign (.var "ptr_byte") (.cast (.bin .sub (.bin .div (.bin .mul (.var "n_blocks_input") (.const N.safeBytes)) (.lit 8)) (.lit 1)) .usize)])
    (env := F.input (BitVec.ofNat 64 (n + 1 + 1 + 1 + 1 + 1 + 1)) m v) (m := imul p F.blocks BLOCKLENBLAKE2SAFEBYTES >>= fun a => isub p (idiv a 8) 1)
    (f := fun b => F.input (low u b) m v) (by simp [hushSs, hushS, hushE, hushP, hushL, hc.quietSafeBytes])
    (by run_src [Frame.input, Frame.outer, hc.main.width, hc.main.prof, hc.main.isSafeBytes, h8]; rfl)
    (.assignOp .xor (.index (.var "whole_matrix") (.var "ptr_byte")) (.lit 72057594037927936) :: rest)
  rw [List.singleton_append] at q
  rw [q]
  simp only [quiet_bind, bind_assoc]
  refine bind_congr_quiet fun a ha => ?_
  refine bind_congr_quiet fun b hb => ?_
  have hab : low u b = F.lastPtr u := by
    rw [isub_pure hb, imul_pure ha]
    rfl
  have hb2 : (F.lastPtr u).toNat = Model.Target.usz u b := by rw [← hab, low_toNat]
  rw [hab]
  refine execBlockL_next (m := Model.Log.get m (Model.Target.usz u b) >>= fun x => Model.Log.put m (Model.Target.usz u b) (x ^^^ 0x0100000000000000)) (f := fun m' => F.input (F.lastPtr u) m' v) ?_ |>.trans ?_
  · have hpl : place c' (F.input (F.lastPtr u) m v) (.index (.var "whole_matrix") (.var "ptr_byte")) = pure ("whole_matrix", [.index (Model.Target.usz u b)]) := by
      run_src [Frame.input, hb2]
    have hm : Has (F.input (F.lastPtr u) m v) "whole_matrix" (.words64 m) := by rfl
    rw [execL, evalL_hush hc.toHush _ none _ (by rfl), placeL_hush hc.toHush _ _ (by rfl), hpl, eval, asTy]
    · simp only [quiet_pure, pure_bind]
      rw [show readNotes (.index (.var "whole_matrix") (.var "ptr_byte")) ("whole_matrix", [.index (Model.Target.usz u b)]) = [.read "whole_matrix" true (Model.Target.usz u b)] from rfl,
        show writeNotes (.index (.var "whole_matrix") (.var "ptr_byte")) ("whole_matrix", [.index (Model.Target.usz u b)]) = [.write "whole_matrix" true (Model.Target.usz u b)] from rfl,
        note_read hc.obs, note_write hc.obs, readPlace_index hm, item_words64, Model.Log.get]
      simp only [quiet_bind, quiet_pure, bind_assoc, pure_bind]
      refine bind_congr fun _ => bind_congr fun x => ?_
      rw [hc.toHush.op, show binOp c.u c.p .xor (.u64 x) (.lit ((72057594037927936 : Nat) : Int)) = pure (.u64 (x ^^^ 0x0100000000000000)) from rfl, quiet_pure, pure_bind,
        writePlace_index hm, setItem_words64, Model.Log.put]
      simp only [quiet_bind, quiet_pure, bind_assoc, pure_bind]
      rfl
    · simp
  · simp only [bind_assoc]

/-! ## Absorbing the input -/

theorem notes_split (e : Expr) (n : BitVec 64) (a right : Array U64) :
    methodNotes e "split_at" [.usize n] (.pair (.words64 a) (.words64 right)) = [.split (rootOf e) n.toNat right.size] := rfl

/-- `let (_, x) = whole_matrix.split_at(ie)`. -/
theorem execL_split (hc : Seen c c') {env : Env} {ie : Expr} {x : String} {j : Res (BitVec 64)} {m : Matrix} (hm : Has env "whole_matrix" (.words64 m))
    (hi : hushE quietVar quietFn ie = true) (hv : eval c' env none ie = (j >>= fun j => pure (.usize j))) :
    execL c (.letSnd x (.method (.var "whole_matrix") "split_at" [ie])) env =
      ((quiet j >>= fun j => Model.Log.tail m j.toNat) >>= fun t => pure (.next ((x, .words64 t) :: env))) := by
  rw [execL, evalL, evalL_hush hc.toHush env none _ (by rfl), eval_var hm, evalListL, evalListL, evalL_hush hc.toHush env none ie hi, hv]
  simp only [quiet_bind, quiet_pure, bind_assoc, pure_bind, split_words]
  refine bind_congr fun j => ?_
  rw [Model.Log.tail, bind_assoc]
  refine bind_congr fun t => ?_
  rw [notes_split, show rootOf (.var "whole_matrix") = "whole_matrix" from rfl, note_split hc.obs]
  rfl

/-- `state = f(state, t.to_vec())`. -/
theorem execL_absorbCall (hc : Seen c c') {env : Env} {f : String} {s : State} {t : Array U64} {g : Logged State} (hs : Has env "state" (.words64 s.toArray))
    (ht : Has env "_right" (.words64 t)) (hext : f ≠ "Vec::with_capacity") (hf : seen (.call f) = [])
    (hcall : c.call f [.words64 s.toArray, .words64 t] = (g >>= fun s' => pure (.words64 s'.toArray))) :
    execL c (.assign (.var "state") (.call f [.var "state", .method (.var "_right") "to_vec" []])) env =
      (g >>= fun s' => pure (.next (env.upd "state" (.words64 s'.toArray)))) := by
  have h1 : evalList c' env [.var "state", .method (.var "_right") "to_vec" []] = pure [.words64 s.toArray, .words64 t] := by
    unfold Has at hs ht
    run_src [hs, ht]
  have h2 : c.obs (.call f) = [] := by rw [hc.obs, hf]
  rw [execL, evalL, evalListL_hush hc.toHush env _ (by rfl), h1]
  simp only [quiet_pure, pure_bind, if_neg hext, note_one _ h2, hcall, bind_assoc, placeL]
  refine bind_congr fun s' => ?_
  rw [hc.writes (l := .var "state") (by rfl), writePlace_var hs]
  simp only [likeOld_words64, pure_bind, quiet_pure]

/-- A part of the log that is returned. -/
theorem log_bind_pure {ε α β : Type} {m : LoggedOf ε α} {f : α → LoggedOf ε β} {b : β} {log log' : List ε} (h : (m >>= f) log = pure (b, log')) :
    ∃ a log'', m log = pure (a, log'') ∧ f a log'' = pure (b, log') := by
  have h' : (m log >>= fun x => f x.1 x.2) = pure (b, log') := h
  obtain ⟨x, hx, h''⟩ := bind_eq_pure h'
  exact ⟨x.1, x.2, hx, h''⟩

theorem execL_absorb (hc : MainSeen c c' u p N) (rest : List Stmt) (m : Matrix) (hm : 8 * m.size ≤ Model.Target.isizeMax u) (v : SetupVars) :
    execBlockL c (absorbStmts N ++ rest) (F.input (F.lastPtr u) m v) =
      (Model.Log.forLoop 0 (irangeLen 0 F.blocks) (fun _ (r : State × Nat) => do
        let right ← Model.Log.tail m r.2
        let state ← Model.Log.absorb_block_blake2_safe r.1 right
        pure (state, r.2 + 8)) (init_state, 0) >>= fun r => execBlockL c rest (F.sponge u (BitVec.ofNat 64 r.2) r.1 m v)) := by
  have hu1 := two_pow_32_le (u := u)
  have hu2 := two_pow_le_64 (u := u)
  have hu3 := two_maxBytes (u := u)
  have h1 := execBlockL_quiet hc.toSeen (a := [.letVar "state" none (.call N.init []), .letVar "ptr_word" (some (.int .usize)) (.lit 0)])
    (env := F.input (F.lastPtr u) m v) (m := (pure () : Res Unit)) (f := fun _ => F.sponge u (BitVec.ofNat 64 0) init_state m v)
    (by simp [hushSs, hushS, hushE, hushEs, hc.quietInit]) (by run_src [hc.main.isInit, if_neg hc.main.initExt, Frame.sponge])
    (.forIn "_i" (.lit 0) (.var "n_blocks_input") false (absorbBody N) :: rest)
  rw [show absorbStmts N ++ rest = [.letVar "state" none (.call N.init []), .letVar "ptr_word" (some (.int .usize)) (.lit 0)] ++
    (.forIn "_i" (.lit 0) (.var "n_blocks_input") false (absorbBody N) :: rest) from rfl, h1, quiet_pure, pure_bind]
  refine execBlockL_next ?_
  rw [execL_for_i64 hc.toSeen (n := F.blocks) "_i" _ (by rfl) (by rfl)]
  rw [forLoopL_map_inv (fun r : State × Nat => F.sponge u (BitVec.ofNat 64 r.2) r.1 m v) (fun _ r => r.2 + 8 < 2 ^ u) 0 (irangeLen 0 F.blocks)
    (fun _ (r : State × Nat) => do
      let right ← Model.Log.tail m r.2
      let state ← Model.Log.absorb_block_blake2_safe r.1 right
      pure (state, r.2 + 8)) _ _ _ (init_state, 0) (by show 0 + 8 < 2 ^ u; omega)]
  · simp only [bind_assoc, pure_bind]
  · intro k r hr _ _
    have hr' : (BitVec.ofNat 64 r.2).toNat = r.2 := by simp; omega
    have h8 : Model.Target.usz u BLOCKLENBLAKE2SAFEINT64 = 8 := by
      show 8 % 2 ^ u = 8
      exact Nat.mod_eq_of_lt (by omega)
    have hadd : Model.Target.usizeAdd u p r.2 8 = pure (r.2 + 8) := usizeAdd_lt (by omega)
    refine (forBodyL_scope (m := Model.Log.tail m r.2 >>= fun right => Model.Log.absorb_block_blake2_safe r.1 right >>= fun s => pure (right, s))
      (f := fun q : Array U64 × State => F.sponge u (BitVec.ofNat 64 (r.2 + 8)) q.2 m v)
      (fun q => [("_right", .words64 q.1), ("_i", .i64 (BitVec.ofNat 64 k))]) (fun _ => rfl) ?_).trans ?_
    · unfold absorbBody
      rw [execBlockL_next (execL_split hc.toSeen (j := (pure (BitVec.ofNat 64 r.2) : Res (BitVec 64))) (m := m) (by rfl) (by rfl) (by rfl)), quiet_pure, pure_bind, hr',
        bind_assoc]
      refine bind_congr fun t => ?_
      rw [execBlockL_next (execL_absorbCall hc.toSeen (s := r.1) (t := t) (by rfl) (by rfl) hc.main.safeExt hc.seenSafe (hc.callSafe _ _))]
      simp only [bind_assoc, pure_bind]
      refine bind_congr fun s' => ?_
      rw [execBlockL_hush hc.toHush _ _ (by simp [hushSs, hushS, hushE, hushP, hushL, hc.quietSafe64])]
      change quiet (execBlock c' _ (("_right", .words64 t) :: ("_i", .i64 (BitVec.ofNat 64 k)) :: F.sponge u (BitVec.ofNat 64 r.2) s' m v)) = _
      run_src [Frame.sponge, Frame.input, hc.main.isSafe64, hc.main.width, hc.main.prof, hr', h8, hadd]
      rfl
    · simp only [bind_assoc, pure_bind]
  · intro k r r' log log' hr _ _ h
    obtain ⟨t, l1, h1, h⟩ := log_bind_pure h
    obtain ⟨s, l2, h2, h⟩ := log_bind_pure h
    have h3 := Res.pure_inj h
    simp only [Prod.mk.injEq] at h3
    rw [← h3.1]
    obtain ⟨t', h1, -⟩ := quiet_bind_pure h1
    unfold splitRight at h1
    split at h1
    · simp only; omega
    · exact (Res.pure_ne_throw h1.symm).elim

end Source
