import Verif.Props.ConstantTime
import Verif.Props.Source32

/-! Properties C63, C65 and C66 on targets whose `usize` has 32 bits: the reasons of panics, and what an observer learns. -/

namespace Props
open Rust Rust.Res Source Spec Spec.Lyra2
open Model.Chains (Digests)

variable {ε : Type}

/-- **C63** (x) Whether `usize` has 32 or 64 bits, the text of `lyra2` and `lyra2mod` panics with one of the two documented messages exactly if
a documented condition is violated; any other panic is an index out of bounds, a failed allocation or, only in a build with overflow
checks, an arithmetic overflow. -/
theorem C63_reasons (u : Nat) (hu : u = 32 ∨ u = 64) (p : Profile) (ext : String → Option (List U8 → List U8)) (depth : Nat) (hd : 6 ≤ depth)
    (k T R C : U64) (pwd salt : List U8) (hp : pwd.length ≤ Model.Target.isizeMax u) (hs : salt.length ≤ Model.Target.isizeMax u) (e : Panic)
    (f : String) (hf : f = "lyra2::lyra2" ∨ f = "lyra2mod::lyra2mod")
    (h : call crate ext u p depth f [.u64 k, .bytes pwd, .bytes salt, .u64 T, .u64 R, .u64 C] = throw e) :
    (e = .explicit ↔ T.toNat < 1 ∨ R.toNat < 3) ∧ (e = .explicit ∨ Reason p e) := by
  have h' : Model.Target.lyra2 u p k pwd salt T R C = throw e ∨ Model.Target.lyra2mod u p k pwd salt T R C = throw e := by
    have e := C63_lyra2 u hu p ext depth hd k T R C pwd salt hp hs
    rcases hf with rfl | rfl
    · rw [e.1] at h; exact .inl (bytesOf_throw h)
    · rw [e.2] at h; exact .inr (bytesOf_throw h)
  by_cases hd : T.toNat < 1 ∨ R.toNat < 3
  · have : e = .explicit := by
      have h1 : Model.Target.lyra2 u p k pwd salt T R C = throw .explicit ∧ Model.Target.lyra2mod u p k pwd salt T R C = throw .explicit := by
        unfold Model.Target.lyra2 Model.Target.lyra2mod
        by_cases ht : T.toNat < 1
        · simp only [if_pos ht]; exact ⟨rfl, rfl⟩
        · simp only [if_neg ht, if_pos (hd.resolve_left ht)]; exact ⟨rfl, rfl⟩
      rcases h' with h | h
      · rw [h1.1, Res.throw_eq, Res.throw_eq] at h; cases h; rfl
      · rw [h1.2, Res.throw_eq, Res.throw_eq] at h; cases h; rfl
    exact ⟨iff_of_true this hd, .inl this⟩
  · have hr : Reason p e := by
      rcases h' with h | h
      · exact reason_of_why (Model.Target.why_lyra2 u p k pwd salt T R C (by omega) (by omega)) h
      · exact reason_of_why (Model.Target.why_lyra2mod u p k pwd salt T R C (by omega) (by omega)) h
    refine ⟨iff_of_false (fun he => ?_) hd, .inr hr⟩
    subst he
    rcases hr with h | h | h <;> simp at h

/-- A call that panics on a 32-bit target for lack of memory: a matrix of `2^31` bytes. -/
example (p : Profile) : call crate (fun _ => none) 32 p 6 "lyra2::lyra2" [.u64 32, .bytes [], .bytes [], .u64 1, .u64 8192, .u64 8192] = throw .capacity := by
  rw [(C63_lyra2 32 (.inl rfl) p (fun _ => none) 6 (by decide) 32 1 8192 8192 [] [] (by decide) (by decide)).1]
  cases p <;> rfl

/-- What C65 and C66 need of the 32-bit target: the calls return. -/
theorem returns32 (p : Profile) (ext : String → Option (List U8 → List U8)) (depth : Nat) (hd : 6 ≤ depth) (k T R C : U64) (pwd salt : List U8)
    (hk : k.toNat ≤ 96) (h : Accepts32 pwd.length salt.length T R C) (f : String) (hf : f = "lyra2::lyra2" ∨ f = "lyra2mod::lyra2mod") :
    ∃ v, (call crate ext 32 p depth f [.u64 k, .bytes pwd, .bytes salt, .u64 T, .u64 R, .u64 C]).Returns v := by
  have e := C63_result p ext depth hd k T R C pwd salt hk h
  rcases hf with rfl | rfl
  · exact ⟨_, e.1⟩
  · exact ⟨_, e.2⟩

/-- **C65** (vi) On a 32-bit target, too, the log of the part of `lyra2` or `lyra2mod` in front of the wandering phase is the same for all
passwords and salts of the given lengths. -/
theorem C65_setup32 (obs : Access → List ε) (p : Profile) (ext : String → Option (List U8 → List U8)) (he : FixedSize ext) (depth : Nat)
    (hd : 5 ≤ depth) (k T R C : U64) (a b : Nat) (hk : k.toNat ≤ 96) (h : Accepts32 a b T R C) (name : String)
    (hn : name = "lyra2::lyra2" ∨ name = "lyra2mod::lyra2mod") (f : Fn) (hf : crate.find? (·.name = name) = some f) :
    ∃ log, ∀ pwd salt : List U8, pwd.length = a → salt.length = b →
      (runFnL { u := 32, p, obs, call := callL obs crate ext 32 p depth } (setupOf f)
        [.u64 k, .bytes pwd, .bytes salt, .u64 T, .u64 R, .u64 C] []).Returns (.i64 0, log) := by
  have hlab : labFn true (labCall true crate 5) (setupOf f) [.pub, .sec, .sec, .pub, .pub, .pub] = some .pub := by
    rcases hn with hn | hn
    · have := strict_setup.1
      rwa [← hn, hf] at this
    · have := strict_setup.2
      rwa [← hn, hf] at this
  have hret : ∀ pwd salt : List U8, pwd.length = a → salt.length = b → ∃ log,
      (runFnL { u := 32, p, obs, call := callL obs crate ext 32 p depth } (setupOf f)
        [.u64 k, .bytes pwd, .bytes salt, .u64 T, .u64 R, .u64 C] []).Returns (.i64 0, log) := by
    intro pwd salt hp hs
    subst hp hs
    obtain ⟨v, hv⟩ := returns32 p ext (depth + 1) (by omega) k T R C pwd salt hk h name hn
    obtain ⟨log, hl⟩ := logged_returns obs hv
    unfold callL at hl
    rw [hf] at hl
    exact setupOf_returns hl
  obtain ⟨log, h0⟩ := hret (List.replicate a 0) (List.replicate b 0) List.length_replicate List.length_replicate
  refine ⟨log, fun pwd salt hp hs => ?_⟩
  obtain ⟨log', h1⟩ := hret pwd salt hp hs
  have ha : ArgsRel [.pub, .sec, .sec, .pub, .pub, .pub] [.u64 k, .bytes (List.replicate a 0), .bytes (List.replicate b 0), .u64 T, .u64 R, .u64 C]
      [.u64 k, .bytes pwd, .bytes salt, .u64 T, .u64 R, .u64 C] :=
    .cons (l := .pub) rfl (.cons (l := .sec) (bytes_like.2 (by simp [hp])) (.cons (l := .sec) (bytes_like.2 (by simp [hs]))
      (.cons (l := .pub) rfl (.cons (l := .pub) rfl (.cons (l := .pub) rfl .nil)))))
  have e := (returns_of (labFn_sound (fun f ls l vs ws h ha => labCall_sound (strict_hides obs) crate he 32 p 5 h depth ha)
    (strict_hides obs) hlab ha) h0 h1).1
  dsimp only at e
  exact e ▸ h1

/-- **C66** (iv) On a 32-bit target: the branches, rounds, calls and variables of an accepted call are a function of the parameters and
lengths. -/
theorem C66_accepted32 (p : Profile) (ext : String → Option (List U8 → List U8)) (he : FixedSize ext) (depth : Nat) (hd : 6 ≤ depth) (k T R C : U64)
    (a b : Nat) (hk : k.toNat ≤ 96) (h : Accepts32 a b T R C) : ∃ log log', ∀ pwd salt : List U8, pwd.length = a → salt.length = b →
      (callL control crate ext 32 p depth "lyra2::lyra2" [.u64 k, .bytes pwd, .bytes salt, .u64 T, .u64 R, .u64 C] []).Returns
          (.bytes (masked k.toNat pwd salt T.toNat R.toNat C.toNat), log) ∧
        (callL control crate ext 32 p depth "lyra2mod::lyra2mod" [.u64 k, .bytes pwd, .bytes salt, .u64 T, .u64 R, .u64 C] []).Returns
          (.bytes (rev3Masked k.toNat pwd salt T.toNat R.toNat C.toNat), log') := by
  have hret : ∀ pwd salt : List U8, pwd.length = a → salt.length = b → ∃ log log',
      (callL control crate ext 32 p depth "lyra2::lyra2" [.u64 k, .bytes pwd, .bytes salt, .u64 T, .u64 R, .u64 C] []).Returns
          (.bytes (masked k.toNat pwd salt T.toNat R.toNat C.toNat), log) ∧
        (callL control crate ext 32 p depth "lyra2mod::lyra2mod" [.u64 k, .bytes pwd, .bytes salt, .u64 T, .u64 R, .u64 C] []).Returns
          (.bytes (rev3Masked k.toNat pwd salt T.toNat R.toNat C.toNat), log') := by
    intro pwd salt hp hs
    subst hp hs
    have e := C63_result p ext depth hd k T R C pwd salt hk h
    obtain ⟨log, h1⟩ := logged_returns control e.1
    obtain ⟨log', h2⟩ := logged_returns control e.2
    exact ⟨log, log', h1, h2⟩
  obtain ⟨log, log', h1, h2⟩ := hret (List.replicate a 0) (List.replicate b 0) List.length_replicate List.length_replicate
  refine ⟨log, log', fun pwd salt hp hs => ?_⟩
  obtain ⟨l, l', h3, h4⟩ := hret pwd salt hp hs
  cases C66_lyra2 32 p ext he depth k T R C _ _ pwd salt (by simp [hp]) (by simp [hs]) _ (.inl rfl) _ _ _ _ h1 h3
  cases C66_lyra2 32 p ext he depth k T R C _ _ pwd salt (by simp [hp]) (by simp [hs]) _ (.inr rfl) _ _ _ _ h2 h4
  exact ⟨h3, h4⟩

/-- **C66** (iv) On a 32-bit target, too, these notes of a chain are always the same. -/
theorem C66_chains32 (p : Profile) (dg : Digests) (hb : Bytes32 dg) (depth : Nat) (hd : 8 ≤ depth) : ∃ l1 l2 l3 l4, ∀ input : List U8,
    (callL control crate (digests dg) 32 p depth "lyra2re::sum" [.bytes input] []).Returns
        (.bytes (Spec.Chains.lyra2re dg.blake256 dg.keccak256 dg.skein512_256 dg.groestl256 input), l1) ∧
      (callL control crate (digests dg) 32 p depth "lyra2rev2::sum" [.bytes input] []).Returns
        (.bytes (Spec.Chains.lyra2rev2 dg.blake256 dg.keccak256 dg.skein512_256 input), l2) ∧
      (callL control crate (digests dg) 32 p depth "lyra2rev3::sum" [.bytes input] []).Returns
        (.bytes (Spec.Chains.lyra2rev3 dg.blake256 input), l3) ∧
      (callL control crate (digests dg) 32 p depth "lyra2z::sum" [.bytes input] []).Returns (.bytes (Spec.Chains.lyra2z dg.blake256 input), l4) := by
  have key : ∀ f (g : List U8 → List U8), labCall false crate 8 f [.any] = some .sec →
      (∀ input, (call crate (digests dg) 32 p depth f [.bytes input]).Returns (.bytes (g input))) →
      ∃ log, ∀ input, (callL control crate (digests dg) 32 p depth f [.bytes input] []).Returns (.bytes (g input), log) := by
    intro f g hl hr
    obtain ⟨log, h0⟩ := logged_returns control (hr [])
    refine ⟨log, fun input => ?_⟩
    obtain ⟨log', h1⟩ := logged_returns control (hr input)
    have ha : ArgsRel [.any] [.bytes []] [.bytes input] := .cons (l := .any) trivial .nil
    have e := (returns_of (labCall_sound control_hides crate (digests_fixed hb) 32 p 8 hl depth ha) h0 h1).1
    dsimp only at e
    exact e ▸ h1
  obtain ⟨l1, h1⟩ := key _ _ lax_chains.1 fun input => (C63_chain_results p dg hb depth hd input).1
  obtain ⟨l2, h2⟩ := key _ _ lax_chains.2.1 fun input => (C63_chain_results p dg hb depth hd input).2.1
  obtain ⟨l3, h3⟩ := key _ _ lax_chains.2.2.1 fun input => (C63_chain_results p dg hb depth hd input).2.2.1
  obtain ⟨l4, h4⟩ := key _ _ lax_chains.2.2.2 fun input => (C63_chain_results p dg hb depth hd input).2.2.2
  exact ⟨l1, l2, l3, l4, fun input => ⟨h1 input, h2 input, h3 input, h4 input⟩⟩

/-- Two passwords, on a 32-bit target. -/
example (p : Profile) : ∃ out out' log,
    (callL control crate (fun _ => none) 32 p 6 "lyra2::lyra2" [.u64 32, .bytes [0, 0], .bytes [], .u64 1, .u64 4, .u64 4] []).Returns (out, log) ∧
      (callL control crate (fun _ => none) 32 p 6 "lyra2::lyra2" [.u64 32, .bytes [1, 2], .bytes [], .u64 1, .u64 4, .u64 4] []).Returns (out', log) := by
  obtain ⟨log, _, h⟩ := C66_accepted32 p (fun _ => none) none_fixed 6 (le_refl _) 32 1 4 4 2 0 (by decide) (by unfold Accepts32; decide)
  exact ⟨_, _, log, (h [0, 0] [] rfl rfl).1, (h [1, 2] [] rfl rfl).1⟩

/-- The same for the part in front of the wandering phase and the complete notes. -/
example (p : Profile) (f : Fn) (hf : crate.find? (·.name = "lyra2::lyra2") = some f) : ∃ log, ∀ pwd salt : List U8, pwd.length = 32 → salt.length = 32 →
    (runFnL { u := 32, p, obs := fun a => [a], call := callL (fun a => [a]) crate (fun _ => none) 32 p 5 } (setupOf f)
      [.u64 32, .bytes pwd, .bytes salt, .u64 1, .u64 4, .u64 4] []).Returns (.i64 0, log) :=
  C65_setup32 _ p _ none_fixed 5 (le_refl _) 32 1 4 4 32 32 (by decide) (by unfold Accepts32; decide) _ (.inl rfl) f hf

/-- The published chains on a 32-bit target. -/
example (p : Profile) : ∃ log, (callL control crate (digests published) 32 p 8 "lyra2re::sum" [.bytes []] []).Returns
      (.bytes (Spec.Chains.lyra2re published.blake256 published.keccak256 published.skein512_256 published.groestl256 []), log) := by
  obtain ⟨log, _, _, _, h⟩ := C66_chains32 p published C41_bytes32 8 (le_refl _)
  exact ⟨log, (h []).1⟩

end Props
