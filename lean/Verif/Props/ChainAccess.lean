import Verif.Model.LogChains
import Verif.Props.Access
import Verif.Props.Chains
import Verif.Props.Published

/-! Property C62: memory accesses and cost of the chains. -/

namespace Props
open Rust Rust.Res Spec Spec.Lyra2 Proofs.Log
open Model.Chains (Digests)

/-- **C62** (0) The log is an observation only: with any digests and for every input, the logged chains return, panic or run forever
as the chains, with the same result. -/
theorem C62_same_outcome (p : Profile) (d : Digests) (input : List U8) (log : List Event) :
    ((Model.Log.Chains.lyra2re p d input log >>= fun x => pure x.1) = Model.Chains.Lyra2re.sum p d input) ∧
      ((Model.Log.Chains.lyra2rev2 p d input log >>= fun x => pure x.1) = Model.Chains.Lyra2rev2.sum p d input) ∧
      ((Model.Log.Chains.lyra2rev3 p d input log >>= fun x => pure x.1) = Model.Chains.Lyra2rev3.sum p d input) ∧
      (Model.Log.Chains.lyra2z p d input log >>= fun x => pure x.1) = Model.Chains.Lyra2z.sum p d input := by
  refine ⟨?_, ?_, ?_, ?_⟩
  · exact Erases.bind (lyra2_erases _ _ _ _ _ _ _) (fun a => Erases.pure _) log
  · exact Erases.bind (.quiet _) (fun a => Erases.bind (lyra2_erases _ _ _ _ _ _ _) fun b => Erases.bind (.quiet _) fun c => .quiet _) log
  · exact Erases.bind (lyra2mod_erases _ _ _ _ _ _ _)
      (fun a => Erases.bind (.quiet _) fun b => Erases.bind (lyra2mod_erases _ _ _ _ _ _ _) fun c => .quiet _) log
  · exact lyra2_erases _ _ _ _ _ _ _ log

/-- What a chain does with the memory matrix and the sponge: number of transformations of one round and of twelve rounds, words
read and written, reads of the sponge state at computed positions, and the size of the matrix. -/
structure ChainCost (log : List Event) (rounds permutations reads writes states words : Nat) : Prop where
  rounds : Event.count .round log = rounds
  permutations : Event.count .permute log = permutations
  reads : Event.count .read log = reads
  writes : Event.count .write log = writes
  states : Event.count .state log = states
  within : ∀ e ∈ log, e.Within words

theorem count_kind {k : Event.Kind} {l : List Event} {ks : List Event.Kind} (h : l.map Event.kind = ks) :
    Event.count k l = ks.countP (fun x => x = k) := by
  rw [← h, List.countP_map]; rfl

theorem ChainCost.of_kinds {log : List Event} {ks : List Event.Kind} {r q x y s w : Nat} (h : log.map Event.kind = ks)
    (hw : ∀ e ∈ log, e.Within w)
    (hc : [.round, .permute, .read, .write, .state].map (fun k => ks.countP fun x => x = k) = [r, q, x, y, s]) : ChainCost log r q x y s w := by
  simp only [List.map_cons, List.map_nil, List.cons.injEq, and_true] at hc
  obtain ⟨h1, h2, h3, h4, h5⟩ := hc
  exact ⟨by rw [count_kind h, h1], by rw [count_kind h, h2], by rw [count_kind h, h3], by rw [count_kind h, h4],
    by rw [count_kind h, h5], hw⟩

/-- A call of `lyra2` on 32 bytes. -/
theorem lyra2_run (p : Profile) {T R C : U64} {t r c n : Nat} (ht : T.toNat = t) (hr : R.toNat = r)
    (hc : C.toNat = c) (hn : (Access.rows r t).length = n) {x : List U8} (hx : x.length = 32) (ha : Accepts 32 32 32 T R C) {out : List U8}
    (ho : Model.Lyra2.lyra2 p 32 x x T R C = pure out) (log : List Event) :
    ∃ l, Model.Log.lyra2 p 32 x x T R C log = pure (out, log ++ l) ∧
      l.map Event.kind = (Access.call 32 32 32 t r c (List.replicate n 0)).map Event.kind ∧
      ∀ e ∈ l, e.Within (12 * (r * c)) := by
  subst ht hr hc hn
  have hd : Accepts 32 x.length x.length T R C := by rw [hx]; exact ha
  have := lyra2_log p 32 T R C x x (domain_iff.2 hd) _ ho log
  refine ⟨_, this, ?_, ?_⟩
  · rw [hx]
    unfold Access.call
    rw [List.map_append, List.map_append, List.map_append, List.map_append,
      wander_kind _ _ _ _ _ _ (stars_length _ _ _ _) (List.length_replicate ..)]
    rfl
  · have hR := ha.2.1
    have hr : ∀ r ∈ Access.rows R.toNat T.toNat, r < R.toNat := (C47_schedule_bound R.toNat T.toNat (by omega)).2
    have hs := stars_mem (P := (· < R.toNat)) (pick := Pick.mask R.toNat) (fun s w => mask_lt (show 1 ≤ R.toNat by omega) _) C.toNat
      (Access.afterSetup (crateWords 32 x x T.toNat R.toNat C.toNat) R.toNat C.toNat) (Access.rows R.toNat T.toNat)
    exact AllWithin.append (.append (beforeWander_within hR hd.2.2.2.2) (wander_within (by omega) _ _ hr hs))
      (wrapUp_within (getLastD_lt (by omega) _ hs) (Accepts.cols hd) _)

/-- A call of `lyra2mod` on 32 bytes. -/
theorem lyra2mod_run (p : Profile) {T R C : U64} {t r c n : Nat} (ht : T.toNat = t) (hr : R.toNat = r)
    (hc : C.toNat = c) (hn : (Access.rows r t).length = n) {x : List U8} (hx : x.length = 32) (ha : Accepts 32 32 32 T R C) {out : List U8}
    (ho : Model.Lyra2mod.lyra2mod p 32 x x T R C = pure out) (log : List Event) :
    ∃ l, Model.Log.lyra2mod p 32 x x T R C log = pure (out, log ++ l) ∧
      l.map Event.kind = (Access.callRev3 32 32 32 t r c (List.replicate n (0, 0, 0))).map Event.kind ∧
      ∀ e ∈ l, e.Within (12 * (r * c)) := by
  subst ht hr hc hn
  have hd : Accepts 32 x.length x.length T R C := by rw [hx]; exact ha
  have := lyra2mod_log p 32 T R C x x (domain_iff.2 hd) _ ho log
  refine ⟨_, this, ?_, ?_⟩
  · rw [hx]
    unfold Access.callRev3
    rw [List.map_append, List.map_append, List.map_append, List.map_append,
      wanderRev3_kind _ _ _ _ _ _ (choices_length _ _ _ _) (List.length_replicate ..)]
    rfl
  · have hR := ha.2.1
    have hr : ∀ r ∈ Access.rows R.toNat T.toNat, r < R.toNat := (C47_schedule_bound R.toNat T.toNat (by omega)).2
    have hs := choices_mem (show 1 ≤ R.toNat by omega) C.toNat
      (Access.afterSetup (crateWords 32 x x T.toNat R.toNat C.toNat) R.toNat C.toNat) (Access.rows R.toNat T.toNat)
    refine AllWithin.append (.append (beforeWander_within hR hd.2.2.2.2) (wanderRev3_within (by omega) _ _ hr hs))
      (wrapUp_within (getLastD_lt (by omega) _ fun r hr => ?_) (Accepts.cols hd) _)
    obtain ⟨c, hc, rfl⟩ := List.mem_map.mp hr
    exact (hs c hc).2.2

/-- The kinds of the events of a call of `lyra2` on 32 bytes for `n` row operations. -/
def kinds (T R C n : Nat) : List Event.Kind := (Access.call 32 32 32 T R C (List.replicate n 0)).map Event.kind

/-- The same for `lyra2mod`. -/
def kindsMod (T R C n : Nat) : List Event.Kind := (Access.callRev3 32 32 32 T R C (List.replicate n (0, 0, 0))).map Event.kind

theorem run_bind {α β : Type} {l : Model.Log.Logged α} {f : α → Model.Log.Logged β} {log log' : List Event} {a : α}
    (h : l log = pure (a, log')) : (l >>= f) log = f a log' := by
  show (l log >>= fun x => f x.1 x.2) = _
  rw [h]; rfl

theorem run_quiet {α : Type} {m : Res α} {a : α} (h : m = pure a) (log : List Event) : Model.Log.quiet m log = pure (a, log) := by
  unfold Model.Log.quiet
  rw [h]; rfl

theorem lyra2re_run (p : Profile) (d : Digests) (hd : Bytes32 d) (input : List U8) :
    ∃ log, (Model.Log.Chains.lyra2re p d input []).Returns
        (Spec.Chains.lyra2re d.blake256 d.keccak256 d.skein512_256 d.groestl256 input, log) ∧
      log.map Event.kind = kinds 1 8 8 8 ∧ ∀ e ∈ log, e.Within 768 := by
  obtain ⟨l, h1, h2, h3⟩ := lyra2_run p (T := 1) (R := 8) (C := 8) (t := 1) (r := 8) (c := 8) rfl rfl rfl (by decide +kernel : (Access.rows 8 1).length = 8) (hd.keccak256 (d.blake256 input))
    accepts_188 (lyra2_188 p (hd.keccak256 _)) []
  refine ⟨l, ?_, h2, h3⟩
  unfold Model.Log.Chains.lyra2re Spec.Chains.lyra2re Returns
  rw [run_bind h1]; rfl

theorem lyra2rev2_run (p : Profile) (d : Digests) (hd : Bytes32 d) (input : List U8) :
    ∃ log, (Model.Log.Chains.lyra2rev2 p d input []).Returns
        (Spec.Chains.lyra2rev2 d.blake256 d.keccak256 d.skein512_256 input, log) ∧
      log.map Event.kind = kinds 1 4 4 4 ∧ ∀ e ∈ log, e.Within 192 := by
  have hc := Proofs.CubeHash.hash_length (d.keccak256 (d.blake256 input))
  obtain ⟨l, h1, h2, h3⟩ := lyra2_run p (T := 1) (R := 4) (C := 4) (t := 1) (r := 4) (c := 4) rfl rfl rfl (by decide +kernel : (Access.rows 4 1).length = 4) hc accepts_144 (lyra2_144 p hc) []
  refine ⟨l, ?_, h2, h3⟩
  unfold Model.Log.Chains.lyra2rev2 Model.Log.Chains.lyra2Sum Spec.Chains.lyra2rev2 Returns
  rw [run_bind (run_quiet (Proofs.CubeHash.sum_ok (hd.keccak256 _)) _), run_bind h1,
    run_bind (run_quiet (Proofs.CubeHash.sum_ok (hd.skein512_256 _)) _),
    run_quiet (Proofs.Bmw.sum_hash (by rw [Proofs.CubeHash.hash_length]; decide)), List.nil_append]

theorem lyra2rev3_run (p : Profile) (d : Digests) (hd : Bytes32 d) (input : List U8) :
    ∃ log, (Model.Log.Chains.lyra2rev3 p d input []).Returns (Spec.Chains.lyra2rev3 d.blake256 input, log) ∧
      log.map Event.kind = kindsMod 1 4 4 4 ++ kindsMod 1 4 4 4 ∧ ∀ e ∈ log, e.Within 192 := by
  have hb := hd.blake256 input
  have hc := Proofs.CubeHash.hash_length (Spec.Chains.lyra2modOf (d.blake256 input))
  obtain ⟨l, h1, h2, h3⟩ := lyra2mod_run p (T := 1) (R := 4) (C := 4) (t := 1) (r := 4) (c := 4) rfl rfl rfl (by decide +kernel : (Access.rows 4 1).length = 4) hb accepts_144 (lyra2mod_digest p hb) []
  obtain ⟨l', h1', h2', h3'⟩ := lyra2mod_run p (T := 1) (R := 4) (C := 4) (t := 1) (r := 4) (c := 4) rfl rfl rfl (by decide +kernel : (Access.rows 4 1).length = 4) hc accepts_144
    (lyra2mod_digest p hc) ([] ++ l)
  refine ⟨l ++ l', ?_, by rw [List.map_append, h2, h2']; rfl, fun e he => ?_⟩
  · unfold Model.Log.Chains.lyra2rev3 Model.Log.Chains.lyra2modSum Spec.Chains.lyra2rev3 Returns
    rw [run_bind h1, run_bind (run_quiet (Proofs.CubeHash.sum_ok (lyra2modOf_length hb)) _), run_bind h1',
      run_quiet (Proofs.Bmw.sum_hash (by rw [lyra2modOf_length hc]; decide)), List.nil_append]
  · rcases List.mem_append.mp he with he | he
    · exact h3 e he
    · exact h3' e he

theorem lyra2z_run (p : Profile) (d : Digests) (hd : Bytes32 d) (input : List U8) :
    ∃ log, (Model.Log.Chains.lyra2z p d input []).Returns (Spec.Chains.lyra2z d.blake256 input, log) ∧
      log.map Event.kind = kinds 8 8 8 64 ∧ ∀ e ∈ log, e.Within 768 := by
  obtain ⟨l, h1, h2, h3⟩ := lyra2_run p (T := 8) (R := 8) (C := 8) (t := 8) (r := 8) (c := 8) rfl rfl rfl (by decide +kernel : (Access.rows 8 8).length = 64) (hd.blake256 input)
    accepts_888 (lyra2_888 p (hd.blake256 _)) []
  exact ⟨l, h1, h2, h3⟩

/-- How often each kind occurs. -/
def counts (ks : List Event.Kind) : List Nat := [.round, .permute, .read, .write, .state].map fun k => ks.countP fun x => x = k

theorem wanderRow_no_state (C prev star row : Nat) : ∀ e ∈ Access.wanderRow C prev star row, e.kind ≠ .state := by
  intro e he
  simp only [Access.wanderRow, Access.columns, Access.each, List.mem_append, List.mem_flatMap, List.mem_cons, List.not_mem_nil,
    or_false] at he
  rcases he with ⟨_, -, ((⟨_, -, rfl | rfl⟩ | rfl) | ⟨_, -, rfl | rfl⟩) | ⟨_, -, rfl | rfl⟩⟩ <;> simp [Event.kind]

theorem wander_no_state (C prev : Nat) (rows stars : List Nat) : ∀ e ∈ Access.wander C prev rows stars, e.kind ≠ .state := by
  induction rows generalizing prev stars with
  | nil => intro e he; cases he
  | cons x xs ih =>
    match stars with
    | [] => intro e he; cases he
    | a :: as =>
      intro e he
      rw [Access.wander, List.mem_append] at he
      exact he.elim (wanderRow_no_state _ _ _ _ e) (ih _ _ e)

theorem call_no_state (k a b T R C : Nat) (stars : List Nat) : ∀ e ∈ Access.call k a b T R C stars, e.kind ≠ .state := by
  intro e he
  rw [Access.call, List.mem_append, List.mem_append] at he
  rcases he with (he | he) | he
  · simp only [Access.beforeWander, Access.input, Access.absorb, Access.setup, Access.row0, Access.row1, Access.setupRow, Access.columns,
      Access.each, List.mem_append, List.mem_flatMap, List.mem_cons, List.not_mem_nil, or_false, List.mem_map] at he
    have key : ∀ {x : Event}, e = x → x.kind ≠ .state → e.kind ≠ .state := fun h h' => h ▸ h'
    rcases he with ((⟨_, -, h⟩ | h | h) | ⟨_, -, h | h⟩) | (⟨_, -, ⟨_, -, h⟩ | h⟩ | ⟨_, -, (⟨_, -, h⟩ | h) | ⟨_, -, h | h⟩⟩) |
        ⟨_, -, ⟨_, -, ((⟨_, -, h | h⟩ | h) | ⟨_, -, h | h⟩) | ⟨_, -, h | h⟩⟩⟩ <;>
      first
        | exact key h (by simp [Event.kind])
        | exact key h.symm (by simp [Event.kind])
  · exact wander_no_state _ _ _ _ e he
  · simp only [Access.wrapUp, List.mem_append, List.mem_cons, List.not_mem_nil, or_false, List.mem_replicate] at he
    rcases he with (rfl | rfl) | ⟨-, rfl⟩ <;> simp [Event.kind]

theorem counts_kinds (T C : Nat) {R n : Nat} (hR : 3 ≤ R) (hn : (Access.rows R T).length = n) :
    counts (kinds T R C n) = [C * (R + n), 4, 1 + 24 * C + 48 * C * (R - 2 + n), 16 + 24 * C * (R - 1 + n), 0] := by
  have hl : (List.replicate n 0).length = (Access.rows R T).length := by rw [List.length_replicate, hn]
  have h := call_cost 32 32 32 T C hR (List.replicate n 0) hl
  rw [hn] at h
  have e : ∀ k, (kinds T R C n).countP (fun x => x = k) = Event.count k (Access.call 32 32 32 T R C (List.replicate n 0)) :=
    fun k => (count_kind rfl).symm
  unfold counts
  simp only [List.map_cons, List.map_nil, e, h.rounds, h.permutations, h.reads, h.writes]
  rw [show Event.count .state (Access.call 32 32 32 T R C (List.replicate n 0)) = 0 from
    List.countP_eq_zero.mpr fun e he => by rw [decide_eq_true_eq]; exact call_no_state _ _ _ _ _ _ _ e he]

theorem counts_re : counts (kinds 1 8 8 8) = [128, 4, 5569, 2896, 0] := counts_kinds 1 8 (by decide) (by decide +kernel)
theorem counts_rev2 : counts (kinds 1 4 4 4) = [32, 4, 1249, 688, 0] := counts_kinds 1 4 (by decide) (by decide +kernel)
theorem counts_rev3 : counts (kindsMod 1 4 4 4 ++ kindsMod 1 4 4 4) = [64, 8, 2498, 1376, 16] := by decide +kernel
theorem counts_z : counts (kinds 8 8 8 64) = [576, 4, 27073, 13648, 0] := counts_kinds 8 8 (by decide) (by decide +kernel)

/-- **C62** (i) What an evaluation of a chain costs, for every input of any length: the number of transformations of one and of
twelve rounds, of words read and written, of reads of the state at computed positions, and the size in words of the matrix, which is
never left. None of these depends on the input. -/
theorem C62_cost (p : Profile) (d : Digests) (hd : Bytes32 d) (input : List U8) :
    (∃ log, (Model.Log.Chains.lyra2re p d input []).Returns
        (Spec.Chains.lyra2re d.blake256 d.keccak256 d.skein512_256 d.groestl256 input, log) ∧ ChainCost log 128 4 5569 2896 0 768) ∧
    (∃ log, (Model.Log.Chains.lyra2rev2 p d input []).Returns
        (Spec.Chains.lyra2rev2 d.blake256 d.keccak256 d.skein512_256 input, log) ∧ ChainCost log 32 4 1249 688 0 192) ∧
    (∃ log, (Model.Log.Chains.lyra2rev3 p d input []).Returns (Spec.Chains.lyra2rev3 d.blake256 input, log) ∧
        ChainCost log 64 8 2498 1376 16 192) ∧
    (∃ log, (Model.Log.Chains.lyra2z p d input []).Returns (Spec.Chains.lyra2z d.blake256 input, log) ∧
        ChainCost log 576 4 27073 13648 0 768) := by
  obtain ⟨l1, a1, b1, c1⟩ := lyra2re_run p d hd input
  obtain ⟨l2, a2, b2, c2⟩ := lyra2rev2_run p d hd input
  obtain ⟨l3, a3, b3, c3⟩ := lyra2rev3_run p d hd input
  obtain ⟨l4, a4, b4, c4⟩ := lyra2z_run p d hd input
  refine ⟨⟨l1, a1, .of_kinds b1 c1 counts_re⟩, ⟨l2, a2, .of_kinds b2 c2 counts_rev2⟩,
    ⟨l3, a3, .of_kinds b3 c3 counts_rev3⟩, ⟨l4, a4, .of_kinds b4 c4 counts_z⟩⟩

/-- **C62** (ii) Two evaluations of a chain, on inputs of any lengths and contents, perform the same sequence of kinds of operations on
the matrix and the sponge. -/
theorem C62_same_kinds (p : Profile) (d : Digests) (hd : Bytes32 d) (input input' : List U8) (chain : Profile → Digests → List U8 → Model.Log.Logged (List U8))
    (hc : chain ∈ [Model.Log.Chains.lyra2re, Model.Log.Chains.lyra2rev2, Model.Log.Chains.lyra2rev3, Model.Log.Chains.lyra2z]) :
    ∃ out out' log log', (chain p d input []).Returns (out, log) ∧ (chain p d input' []).Returns (out', log') ∧
      log.map Event.kind = log'.map Event.kind := by
  simp only [List.mem_cons, List.not_mem_nil, or_false] at hc
  rcases hc with rfl | rfl | rfl | rfl
  · obtain ⟨l, a, b, -⟩ := lyra2re_run p d hd input
    obtain ⟨l', a', b', -⟩ := lyra2re_run p d hd input'
    exact ⟨_, _, l, l', a, a', by rw [b, b']⟩
  · obtain ⟨l, a, b, -⟩ := lyra2rev2_run p d hd input
    obtain ⟨l', a', b', -⟩ := lyra2rev2_run p d hd input'
    exact ⟨_, _, l, l', a, a', by rw [b, b']⟩
  · obtain ⟨l, a, b, -⟩ := lyra2rev3_run p d hd input
    obtain ⟨l', a', b', -⟩ := lyra2rev3_run p d hd input'
    exact ⟨_, _, l, l', a, a', by rw [b, b']⟩
  · obtain ⟨l, a, b, -⟩ := lyra2z_run p d hd input
    obtain ⟨l', a', b', -⟩ := lyra2z_run p d hd input'
    exact ⟨_, _, l, l', a, a', by rw [b, b']⟩

/-- The published digests return 32 bytes; so all of this holds of the published chains, for instance on the empty input. -/
example (p : Profile) : ∃ log, (Model.Log.Chains.lyra2z p published [] []).Returns
    (Spec.Chains.lyra2z published.blake256 [], log) ∧ ChainCost log 576 4 27073 13648 0 768 :=
  (C62_cost p published C41_bytes32 []).2.2.2

end Props
