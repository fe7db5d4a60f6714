import Verif.Props.SourceLog
import Verif.Proofs.SrcSecretCrate

/-! Properties C65 and C66: what an observer of the source text learns of the contents of its inputs. The notes are those of
`Source/Log.lean`; an observer makes of each note what it likes, so that a statement about all observers is one about the complete
notes: every element of every variable read and written, every part taken of a vector, every branch, number of rounds, call and size
of a vector created, the operands of divisions and the places of shifts (C67). `Source.shape v` is the type of `v` and its lengths, `FixedSize` says that the functions of other crates return as
many bytes for every input (`Source/Observe.lean`). -/

namespace Props
open Rust Rust.Res Source Spec Spec.Lyra2
open Model.Chains (Digests)

variable {ε : Type}

/-- No observer tells the two runs apart: both return, values of the same shape, and leave the same log, or both panic for the same
reason, or neither ends. -/
def Indistinct (m m' : Res (Val × List ε)) : Prop :=
  (∃ v v' log, m.Returns (v, log) ∧ m'.Returns (v', log) ∧ shape v = shape v') ∨ (∃ e, m = throw e ∧ m' = throw e) ∨ m.Diverges ∧ m'.Diverges

theorem indistinct_of {l : Label} (hl : l ≠ .any) {m m' : Model.Log.LoggedOf ε Val} (h : Agree true (Rel l) m m') (log : List ε) :
    Indistinct (m log) (m' log) := by
  have h := h log
  generalize m log = x at h
  generalize m' log = y at h
  cases h with
  | @ret a b h =>
    obtain ⟨v, log⟩ := a
    obtain ⟨w, log'⟩ := b
    obtain ⟨h1, h2⟩ := h
    cases h1
    exact .inl ⟨v, w, log, rfl, rfl, h2.like hl⟩
  | panic e => exact .inr (.inl ⟨e, rfl, rfl⟩)
  | never => exact .inr (.inr ⟨rfl, rfl⟩)
  | left hs _ => cases hs
  | right hs _ => cases hs

/-- Two runs that return leave the same log. -/
theorem returns_of {s : Bool} {R : Val → Val → Prop} {m m' : Model.Log.LoggedOf ε Val} (h : Agree s R m m') {log : List ε} {x y : Val × List ε}
    (hx : (m log).Returns x) (hy : (m' log).Returns y) : x.2 = y.2 ∧ R x.1 y.1 := by
  have h := h log
  unfold Res.Returns at hx hy
  rw [hx, hy] at h
  generalize hm : (pure x : Res _) = m1 at h
  generalize hm' : (pure y : Res _) = m2 at h
  cases h with
  | ret h =>
    cases Res.pure_inj hm
    cases Res.pure_inj hm'
    exact h
  | panic e => cases hm
  | never => cases hm
  | left _ hf => exact (hf x hm.symm).elim
  | right _ hf => exact (hf y hm'.symm).elim

/-- A call that returns does so with a log. -/
theorem logged_returns (obs : Access → List ε) {fns : List Fn} {ext : String → Option (List U8 → List U8)} {u : Nat} {p : Profile} {depth : Nat}
    {name : String} {args : List Val} {v : Val} (h : (call fns ext u p depth name args).Returns v) :
    ∃ log, (callL obs fns ext u p depth name args []).Returns (v, log) := by
  rw [← C64_same_outcome obs fns ext u p depth name args []] at h
  obtain ⟨⟨w, log⟩, h1, h2⟩ := bind_returns h
  cases Res.pure_inj h2
  exact ⟨log, h1⟩

theorem none_fixed : FixedSize fun _ => none := fun _ _ h => nomatch h

theorem digests_fixed {dg : Digests} (hb : Bytes32 dg) : FixedSize (digests dg) := by
  intro f h hf xs ys
  unfold digests at hf
  split at hf
  · cases hf; rw [hb.blake256, hb.blake256]
  · split at hf
    · cases hf; rw [hb.keccak256, hb.keccak256]
    · split at hf
      · cases hf; rw [hb.skein512_256, hb.skein512_256]
      · split at hf
        · cases hf; rw [hb.groestl256, hb.groestl256]
        · cases hf

/-! ## C65 -/

/-- Lists of arguments that differ at most in the contents of the secret ones. -/
inductive SamePublic : List Bool → List Val → List Val → Prop
  | nil : SamePublic [] [] []
  | secret {v w : Val} {bs : List Bool} {vs ws : List Val} (h : shape v = shape w) (hs : SamePublic bs vs ws) : SamePublic (true :: bs) (v :: vs) (w :: ws)
  | known {v : Val} {bs : List Bool} {vs ws : List Val} (hs : SamePublic bs vs ws) : SamePublic (false :: bs) (v :: vs) (v :: ws)

theorem SamePublic.rel {bs : List Bool} {vs ws : List Val} (h : SamePublic bs vs ws) : ArgsRel (bs.map labOf) vs ws := by
  induction h with
  | nil => exact .nil
  | secret h _ ih => exact .cons (l := .sec) h ih
  | known _ ih => exact .cons (l := .pub) rfl ih

/-- **C65** (0) A function of any program that passes the strict check, with the labels of its arguments, is one of whose secret
arguments no observer learns more than their shapes. -/
theorem C65_check_sound (obs : Access → List ε) (fns : List Fn) (ext : String → Option (List U8 → List U8)) (he : FixedSize ext) (u : Nat)
    (p : Profile) (n depth : Nat) (f : String) (secret : List Bool) (l : Label) (h : labCall true fns n f (secret.map labOf) = some l)
    (hl : l ≠ .any) (vs ws : List Val) (hv : SamePublic secret vs ws) (log : List ε) :
    Indistinct (callL obs fns ext u p depth f vs log) (callL obs fns ext u p depth f ws log) :=
  indistinct_of hl (labCall_sound (strict_hides obs) fns he u p n h depth hv.rel) log

/-- **C65** (i) The functions listed in `Source.constantTime`, that is `cubehash::sum` and `bmw::sum` with all they call, the sponge, and
`utils`: no observer learns anything of the contents of their arguments, except for the number of places of a rotation and the
length of the output of `squeeze`. For all arguments, all widths of `usize`, both profiles. -/
theorem C65_functions (obs : Access → List ε) (ext : String → Option (List U8 → List U8)) (he : FixedSize ext) (u : Nat) (p : Profile) (depth : Nat)
    (f : String) (secret : List Bool) (hf : (f, secret) ∈ constantTime) (vs ws : List Val) (hv : SamePublic secret vs ws) (log : List ε) :
    Indistinct (callL obs crate ext u p depth f vs log) (callL obs crate ext u p depth f ws log) := by
  have h := List.all_eq_true.mp constantTime_checked _ hf
  exact C65_check_sound obs crate ext he u p 6 depth f secret .sec (by simpa using h) (by decide) vs ws hv log

/-- **C65** (ii) These are all functions of the crate that have parameters, but for `lyra2`, `lyra2mod` and those that call them. -/
theorem C65_which : ∀ f ∈ crate, f.params = [] ∨ f.name ∈ constantTime.map (·.1) ∨ f.name ∈ ["lyra2::lyra2", "lyra2::sum", "lyra2mod::lyra2mod",
    "lyra2mod::sum", "lyra2re::sum", "lyra2rev2::sum", "lyra2rev3::sum", "lyra2z::sum"] := by decide +kernel

/-- **C65** (ii) And all their arguments are secret, but for the number of places of a rotation and the length of the output of `squeeze`. -/
theorem C65_secret : ∀ x ∈ constantTime,
    (crate.find? (·.name = x.1)).map (·.params.length) = some x.2.length ∧
      ((∀ b ∈ x.2, b = true) ∨ x.2 = [true, false] ∧ ((crate.find? (·.name = x.1)).map (·.params.map (·.1)) = some ["w", "c"] ∨
        (crate.find? (·.name = x.1)).map (·.params.map (·.1)) = some ["x", "n"] ∨
        (crate.find? (·.name = x.1)).map (·.params.map (·.1)) = some ["state", "output_size"])) := by decide +kernel

/-- **C65** (iii) The log of `cubehash::sum` is the same for all inputs of 32 bytes, that of `bmw::sum` the same for all inputs of a
length up to 55. -/
theorem C65_hashes (obs : Access → List ε) (p : Profile) (ext : String → Option (List U8 → List U8)) (he : FixedSize ext) (depth : Nat) (hd : 3 ≤ depth) :
    (∃ log, ∀ input : List U8, input.length = 32 →
      (callL obs crate ext 64 p depth "cubehash::sum" [.bytes input] []).Returns (.bytes (Spec.CubeHash.hash input), log)) ∧
    ∀ n ≤ 55, ∃ log, ∀ input : List U8, input.length = n →
      (callL obs crate ext 64 p depth "bmw::sum" [.bytes input] []).Returns (.bytes (Spec.Bmw.hash input), log) := by
  have key : ∀ f, (f, [true]) ∈ constantTime → ∀ (g : List U8 → List U8) (n : Nat),
      (∀ input, input.length = n → (call crate ext 64 p depth f [.bytes input]).Returns (.bytes (g input))) →
      ∃ log, ∀ input, input.length = n → (callL obs crate ext 64 p depth f [.bytes input] []).Returns (.bytes (g input), log) := by
    intro f hf g n hr
    obtain ⟨log, h0⟩ := logged_returns obs (hr (List.replicate n 0) List.length_replicate)
    refine ⟨log, fun input hi => ?_⟩
    obtain ⟨log', h1⟩ := logged_returns obs (hr input hi)
    have h := List.all_eq_true.mp constantTime_checked _ hf
    have ha : ArgsRel [.sec] [.bytes (List.replicate n 0)] [.bytes input] := .cons (l := .sec) (bytes_like.2 (by simp [hi])) .nil
    have e := (returns_of (labCall_sound (strict_hides obs) crate he 64 p 6 (by simpa [labOf] using h) depth ha) h0 h1).1
    dsimp only at e
    exact e ▸ h1
  exact ⟨key _ (by decide) _ _ fun input hi => (C60_cubehash_bmw p ext depth hd input).1 hi,
    fun n hn => key _ (by decide) _ _ fun input hi => (C60_cubehash_bmw p ext depth hd input).2 (hi ▸ hn)⟩

/-- **C65** (iv) The part of `lyra2` or `lyra2mod` in front of the wandering phase: for accepted parameters, its log is the same for all
passwords and salts of the given lengths. -/
theorem C65_setup (obs : Access → List ε) (p : Profile) (ext : String → Option (List U8 → List U8)) (he : FixedSize ext) (depth : Nat) (hd : 5 ≤ depth)
    (k T R C : U64) (a b : Nat) (h : Accepts k a b T R C) (name : String) (hn : name = "lyra2::lyra2" ∨ name = "lyra2mod::lyra2mod") (f : Fn)
    (hf : crate.find? (·.name = name) = some f) :
    ∃ log, ∀ pwd salt : List U8, pwd.length = a → salt.length = b →
      (runFnL { u := 64, p, obs, call := callL obs crate ext 64 p depth } (setupOf f)
        [.u64 k, .bytes pwd, .bytes salt, .u64 T, .u64 R, .u64 C] []).Returns (.i64 0, log) := by
  have hlab : labFn true (labCall true crate 5) (setupOf f) [.pub, .sec, .sec, .pub, .pub, .pub] = some .pub := by
    rcases hn with hn | hn
    · have := strict_setup.1
      rwa [← hn, hf] at this
    · have := strict_setup.2
      rwa [← hn, hf] at this
  have hret : ∀ pwd salt : List U8, pwd.length = a → salt.length = b → ∃ log,
      (runFnL { u := 64, p, obs, call := callL obs crate ext 64 p depth } (setupOf f)
        [.u64 k, .bytes pwd, .bytes salt, .u64 T, .u64 R, .u64 C] []).Returns (.i64 0, log) := by
    intro pwd salt hp hs
    have hv : ∃ v, (call crate ext 64 p (depth + 1) name [.u64 k, .bytes pwd, .bytes salt, .u64 T, .u64 R, .u64 C]).Returns v := by
      subst hp hs
      have e := C59_lyra2 p ext (depth + 1) (by omega) k T R C pwd salt h.lengths.1 h.lengths.2
      rcases hn with hn | hn
      · rw [hn, e.1]
        exact ⟨_, bytesOf_returns (C06_lyra2_result p k T R C pwd salt h)⟩
      · rw [hn, e.2]
        exact ⟨_, bytesOf_returns (C20_lyra2mod_result p k T R C pwd salt h)⟩
    obtain ⟨v, hv⟩ := hv
    obtain ⟨log, hl⟩ := logged_returns obs hv
    unfold callL at hl
    rw [hf] at hl
    exact setupOf_returns hl
  obtain ⟨log, h0⟩ := hret (List.replicate a 0) (List.replicate b 0) List.length_replicate List.length_replicate
  refine ⟨log, fun pwd salt hp hs => ?_⟩
  obtain ⟨log', h1⟩ := hret pwd salt hp hs
  have ha : ArgsRel [.pub, .sec, .sec, .pub, .pub, .pub] [.u64 k, .bytes (List.replicate a 0), .bytes (List.replicate b 0), .u64 T, .u64 R, .u64 C]
      [.u64 k, .bytes pwd, .bytes salt, .u64 T, .u64 R, .u64 C] :=
    .cons (l := .pub) rfl (.cons (l := .sec) (bytes_like.2 (by simp [hp])) (.cons (l := .sec) (bytes_like.2 (by simp [hs]))
      (.cons (l := .pub) rfl (.cons (l := .pub) rfl (.cons (l := .pub) rfl .nil)))))
  have e := (returns_of (labFn_sound (fun f ls l vs ws h ha => labCall_sound (strict_hides obs) crate he 64 p 5 h depth ha)
    (strict_hides obs) hlab ha) h0 h1).1
  dsimp only at e
  exact e ▸ h1

/-- **C65** (v) The wandering phase is not of this kind: there are accepted calls of `lyra2` with passwords of the same length that an
observer of the memory matrix tells apart. -/
theorem C65_not_lyra2 : ∃ (k T R C : U64) (pwd pwd' : List U8), pwd.length = pwd'.length ∧ Accepts k pwd.length 0 T R C ∧
    ∀ p ext depth, 6 ≤ depth →
      ¬ Indistinct (callL seen crate ext 64 p depth "lyra2::lyra2" [.u64 k, .bytes pwd, .bytes [], .u64 T, .u64 R, .u64 C] [])
        (callL seen crate ext 64 p depth "lyra2::lyra2" [.u64 k, .bytes pwd', .bytes [], .u64 T, .u64 R, .u64 C] []) := by
  obtain ⟨k, T, R, C, pwd, pwd', hl, ha, h⟩ := C55_depends_on_password
  refine ⟨k, T, R, C, pwd, pwd', hl, ha, fun p ext depth hd hi => ?_⟩
  obtain ⟨out, out', log, log', h1, h2, hne⟩ := h p
  have e := (C64_lyra2 p ext depth hd k T R C pwd [] ha.lengths.1 ha.lengths.2 []).1
  have e' := (C64_lyra2 p ext depth hd k T R C pwd' [] (hl ▸ ha.lengths.1) ha.lengths.2 []).1
  have h1 := bytesLogOf_returns h1
  have h2 := bytesLogOf_returns h2
  rw [← e] at h1
  rw [← e'] at h2
  unfold Res.Returns at h1 h2
  rw [h1, h2] at hi
  rcases hi with ⟨v, v', l, r1, r2, -⟩ | ⟨e, r1, -⟩ | ⟨r1, -⟩
  · have r1 := Res.pure_inj r1
    have r2 := Res.pure_inj r2
    exact hne ((Prod.mk.inj r1).2.trans (Prod.mk.inj r2).2.symm)
  · cases r1
  · cases r1

/-- **C65** (v) Therefore the strict check rejects `lyra2`, however far it follows calls. -/
theorem C65_rejected (n : Nat) (l : Label) (hl : l ≠ .any) :
    labCall true crate n "lyra2::lyra2" ([false, true, true, false, false, false].map labOf) ≠ some l := by
  intro h
  obtain ⟨k, T, R, C, pwd, pwd', hp, -, hne⟩ := C65_not_lyra2
  refine hne .debug (fun _ => none) 6 (le_refl _) (C65_check_sound seen crate _ none_fixed 64 .debug n 6 _ _ l h hl _ _ ?_ [])
  exact .known (.secret (bytes_like.2 hp) (.secret rfl (.known (.known (.known .nil)))))

/-- CubeHash of 32 zero bytes and of 32 other bytes: the same complete log. -/
example (p : Profile) : ∃ log,
    (callL (fun a => [a]) crate (fun _ => none) 64 p 3 "cubehash::sum" [.bytes (List.replicate 32 0)] []).Returns
        (.bytes (Spec.CubeHash.hash (List.replicate 32 0)), log) ∧
      (callL (fun a => [a]) crate (fun _ => none) 64 p 3 "cubehash::sum" [.bytes (List.replicate 32 7)] []).Returns
        (.bytes (Spec.CubeHash.hash (List.replicate 32 7)), log) := by
  obtain ⟨log, h⟩ := (C65_hashes (fun a => [a]) p (fun _ => none) none_fixed 3 (le_refl _)).1
  exact ⟨log, h _ (by simp), h _ (by simp)⟩

/-- The setup phase of Lyra2REv2. -/
example (p : Profile) (f : Fn) (hf : crate.find? (·.name = "lyra2::lyra2") = some f) : ∃ log, ∀ pwd salt : List U8, pwd.length = 32 → salt.length = 32 →
    (runFnL { u := 64, p, obs := fun a => [a], call := callL (fun a => [a]) crate (fun _ => none) 64 p 5 } (setupOf f)
      [.u64 32, .bytes pwd, .bytes salt, .u64 1, .u64 4, .u64 4] []).Returns (.i64 0, log) :=
  C65_setup _ p _ none_fixed 5 (le_refl _) 32 1 4 4 32 32 (by unfold Accepts isizeMax; decide) _ (.inl rfl) f hf

/-- There is such a function, and the part has 44 of its 47 statements. -/
example : (crate.find? (·.name = "lyra2::lyra2")).map (fun f => ((setupOf f).body.length, f.body.length)) = some (44, 47) := by decide +kernel

/-! ## C66 -/

/-- **C66** (0) What the observer `control` is left with: the way of every `if`, the number of rounds of every `for`, the name of every
function called and of every variable of which an element is read or written. -/
theorem C66_control (a a' : Access) (h : Source.control a = Source.control a') :
    (∀ b, a = .branch b → a' = .branch b) ∧ (∀ n, a = .range n → a' = .range n) ∧ (∀ f, a = .call f → a' = .call f) ∧
      (∀ x c i, a = .read x c i → ∃ j, a' = .read x c j) ∧ (∀ x c i, a = .write x c i → ∃ j, a' = .write x c j) ∧
      (∀ x y, a = .divide x y → ∃ x y, a' = .divide x y) ∧ (∀ n, a = .shift n → ∃ n, a' = .shift n) := by
  cases a <;> cases a' <;> simp_all [Source.control]

/-- **C66** (i) Two calls of `lyra2` or `lyra2mod` that return, with the same parameters and passwords and salts of the same lengths: the
same branches are taken, loops have as many rounds, and the same functions are called and the same variables accessed, in the same
order. For all widths of `usize`, both profiles. -/
theorem C66_lyra2 (u : Nat) (p : Profile) (ext : String → Option (List U8 → List U8)) (he : FixedSize ext) (depth : Nat) (k T R C : U64)
    (pwd salt pwd' salt' : List U8) (hp : pwd.length = pwd'.length) (hs : salt.length = salt'.length) (f : String)
    (hf : f = "lyra2::lyra2" ∨ f = "lyra2mod::lyra2mod") (v v' : Val) (log log' : List Access)
    (h : (callL control crate ext u p depth f [.u64 k, .bytes pwd, .bytes salt, .u64 T, .u64 R, .u64 C] []).Returns (v, log))
    (h' : (callL control crate ext u p depth f [.u64 k, .bytes pwd', .bytes salt', .u64 T, .u64 R, .u64 C] []).Returns (v', log')) :
    log = log' := by
  have ha : ArgsRel [.pub, .sec, .sec, .pub, .pub, .pub] [.u64 k, .bytes pwd, .bytes salt, .u64 T, .u64 R, .u64 C]
      [.u64 k, .bytes pwd', .bytes salt', .u64 T, .u64 R, .u64 C] :=
    .cons (l := .pub) rfl (.cons (l := .sec) (bytes_like.2 hp) (.cons (l := .sec) (bytes_like.2 hs)
      (.cons (l := .pub) rfl (.cons (l := .pub) rfl (.cons (l := .pub) rfl .nil)))))
  rcases hf with rfl | rfl
  · exact (returns_of (labCall_sound control_hides crate he u p 6 lax_lyra2.1 depth ha) h h').1
  · exact (returns_of (labCall_sound control_hides crate he u p 6 lax_lyra2.2 depth ha) h h').1

/-- **C66** (i) The same for their `sum`. -/
theorem C66_sums (u : Nat) (p : Profile) (ext : String → Option (List U8 → List U8)) (he : FixedSize ext) (depth : Nat) (input input' : List U8)
    (hi : input.length = input'.length) (f : String) (hf : f = "lyra2::sum" ∨ f = "lyra2mod::sum") (v v' : Val) (log log' : List Access)
    (h : (callL control crate ext u p depth f [.bytes input] []).Returns (v, log))
    (h' : (callL control crate ext u p depth f [.bytes input'] []).Returns (v', log')) : log = log' := by
  have ha : ArgsRel [.sec] [.bytes input] [.bytes input'] := .cons (l := .sec) (bytes_like.2 hi) .nil
  rcases hf with rfl | rfl
  · exact (returns_of (labCall_sound control_hides crate he u p 7 lax_sums.1 depth ha) h h').1
  · exact (returns_of (labCall_sound control_hides crate he u p 7 lax_sums.2 depth ha) h h').1

/-- **C66** (ii) Accepted calls return, so that these notes are a function of the parameters and lengths. -/
theorem C66_accepted (p : Profile) (ext : String → Option (List U8 → List U8)) (he : FixedSize ext) (depth : Nat) (hd : 6 ≤ depth) (k T R C : U64)
    (a b : Nat) (h : Accepts k a b T R C) : ∃ log log', ∀ pwd salt : List U8, pwd.length = a → salt.length = b →
      (callL control crate ext 64 p depth "lyra2::lyra2" [.u64 k, .bytes pwd, .bytes salt, .u64 T, .u64 R, .u64 C] []).Returns
          (.bytes (masked k.toNat pwd salt T.toNat R.toNat C.toNat), log) ∧
        (callL control crate ext 64 p depth "lyra2mod::lyra2mod" [.u64 k, .bytes pwd, .bytes salt, .u64 T, .u64 R, .u64 C] []).Returns
          (.bytes (rev3Masked k.toNat pwd salt T.toNat R.toNat C.toNat), log') := by
  have hret : ∀ pwd salt : List U8, pwd.length = a → salt.length = b → ∃ log log',
      (callL control crate ext 64 p depth "lyra2::lyra2" [.u64 k, .bytes pwd, .bytes salt, .u64 T, .u64 R, .u64 C] []).Returns
          (.bytes (masked k.toNat pwd salt T.toNat R.toNat C.toNat), log) ∧
        (callL control crate ext 64 p depth "lyra2mod::lyra2mod" [.u64 k, .bytes pwd, .bytes salt, .u64 T, .u64 R, .u64 C] []).Returns
          (.bytes (rev3Masked k.toNat pwd salt T.toNat R.toNat C.toNat), log') := by
    intro pwd salt hp hs
    subst hp hs
    have e := C59_lyra2 p ext depth hd k T R C pwd salt h.lengths.1 h.lengths.2
    obtain ⟨log, h1⟩ := logged_returns control (e.1 ▸ bytesOf_returns (C06_lyra2_result p k T R C pwd salt h))
    obtain ⟨log', h2⟩ := logged_returns control (e.2 ▸ bytesOf_returns (C20_lyra2mod_result p k T R C pwd salt h))
    exact ⟨log, log', h1, h2⟩
  obtain ⟨log, log', h1, h2⟩ := hret (List.replicate a 0) (List.replicate b 0) List.length_replicate List.length_replicate
  refine ⟨log, log', fun pwd salt hp hs => ?_⟩
  obtain ⟨l, l', h3, h4⟩ := hret pwd salt hp hs
  cases C66_lyra2 64 p ext he depth k T R C _ _ pwd salt (by simp [hp]) (by simp [hs]) _ (.inl rfl) _ _ _ _ h1 h3
  cases C66_lyra2 64 p ext he depth k T R C _ _ pwd salt (by simp [hp]) (by simp [hs]) _ (.inr rfl) _ _ _ _ h2 h4
  exact ⟨h3, h4⟩

/-- **C66** (iii) The four chains, for all inputs of all lengths: these notes are always the same, whatever functions with results of
32 bytes the other crates provide. -/
theorem C66_chains (p : Profile) (dg : Digests) (hb : Bytes32 dg) (depth : Nat) (hd : 8 ≤ depth) : ∃ l1 l2 l3 l4, ∀ input : List U8,
    (callL control crate (digests dg) 64 p depth "lyra2re::sum" [.bytes input] []).Returns
        (.bytes (Spec.Chains.lyra2re dg.blake256 dg.keccak256 dg.skein512_256 dg.groestl256 input), l1) ∧
      (callL control crate (digests dg) 64 p depth "lyra2rev2::sum" [.bytes input] []).Returns
        (.bytes (Spec.Chains.lyra2rev2 dg.blake256 dg.keccak256 dg.skein512_256 input), l2) ∧
      (callL control crate (digests dg) 64 p depth "lyra2rev3::sum" [.bytes input] []).Returns
        (.bytes (Spec.Chains.lyra2rev3 dg.blake256 input), l3) ∧
      (callL control crate (digests dg) 64 p depth "lyra2z::sum" [.bytes input] []).Returns (.bytes (Spec.Chains.lyra2z dg.blake256 input), l4) := by
  have key : ∀ f (g : List U8 → List U8), labCall false crate 8 f [.any] = some .sec →
      (∀ input, (call crate (digests dg) 64 p depth f [.bytes input]).Returns (.bytes (g input))) →
      ∃ log, ∀ input, (callL control crate (digests dg) 64 p depth f [.bytes input] []).Returns (.bytes (g input), log) := by
    intro f g hl hr
    obtain ⟨log, h0⟩ := logged_returns control (hr [])
    refine ⟨log, fun input => ?_⟩
    obtain ⟨log', h1⟩ := logged_returns control (hr input)
    have ha : ArgsRel [.any] [.bytes []] [.bytes input] := .cons (l := .any) trivial .nil
    have e := (returns_of (labCall_sound control_hides crate (digests_fixed hb) 64 p 8 hl depth ha) h0 h1).1
    dsimp only at e
    exact e ▸ h1
  obtain ⟨l1, h1⟩ := key _ _ lax_chains.1 fun input => (C60_chains p dg hb depth hd input).1
  obtain ⟨l2, h2⟩ := key _ _ lax_chains.2.1 fun input => (C60_chains p dg hb depth hd input).2.1
  obtain ⟨l3, h3⟩ := key _ _ lax_chains.2.2.1 fun input => (C60_chains p dg hb depth hd input).2.2.1
  obtain ⟨l4, h4⟩ := key _ _ lax_chains.2.2.2 fun input => (C60_chains p dg hb depth hd input).2.2.2
  exact ⟨l1, l2, l3, l4, fun input => ⟨h1 input, h2 input, h3 input, h4 input⟩⟩

/-- The two passwords of C65 (v), which an observer of positions tells apart, are alike to this one. -/
example (p : Profile) : ∃ out out' log,
    (callL control crate (fun _ => none) 64 p 6 "lyra2::lyra2" [.u64 1, .bytes [0, 0, 0, 0, 0, 0, 0, 0], .bytes [], .u64 1, .u64 4, .u64 1] []).Returns
        (out, log) ∧
      (callL control crate (fun _ => none) 64 p 6 "lyra2::lyra2" [.u64 1, .bytes [2, 0, 0, 0, 0, 0, 0, 0], .bytes [], .u64 1, .u64 4, .u64 1] []).Returns
        (out', log) := by
  obtain ⟨log, _, h⟩ := C66_accepted p (fun _ => none) none_fixed 6 (le_refl _) 1 1 4 1 8 0 (by unfold Accepts isizeMax; decide)
  exact ⟨_, _, log, (h [0, 0, 0, 0, 0, 0, 0, 0] [] rfl rfl).1, (h [2, 0, 0, 0, 0, 0, 0, 0] [] rfl rfl).1⟩

/-- The published chains: the empty input and another one. -/
example (p : Profile) : ∃ log, (callL control crate (digests published) 64 p 8 "lyra2z::sum" [.bytes []] []).Returns
      (.bytes (Spec.Chains.lyra2z published.blake256 []), log) ∧
    (callL control crate (digests published) 64 p 8 "lyra2z::sum" [.bytes [1, 2, 3]] []).Returns
      (.bytes (Spec.Chains.lyra2z published.blake256 [1, 2, 3]), log) := by
  obtain ⟨_, _, _, log, h⟩ := C66_chains p published C41_bytes32 8 (le_refl _)
  exact ⟨log, (h []).2.2.2, (h [1, 2, 3]).2.2.2⟩

end Props
