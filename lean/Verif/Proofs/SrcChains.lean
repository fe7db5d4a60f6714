import Verif.Source.Digests
import Verif.Props.Lyra2
import Verif.Props.CubeHash
import Verif.Proofs.SrcMod
import Verif.Proofs.SrcBmwSum
import Verif.Proofs.Target64

/-! The source of the four chains computes what `Model.Target` says. -/

set_option linter.unusedSectionVars false

namespace Source.Chains
open Rust Model.Chains

variable {u : Nat} [Width u] {p : Profile} {d : Nat} (dg : Digests)

set_option maxRecDepth 10000

theorem call_ext (name : String) (f : List U8 → List U8) (h : crate.find? (·.name = name) = none) (hf : digests dg name = some f) (xs : List U8) :
    call crate (digests dg) u p (d + 1) name [.bytes xs] = pure (.bytes (f xs)) := by
  simp only [call, h, hf]

theorem call_blake (xs : List U8) : call crate (digests dg) u p (d + 1) "blake_hash::Blake256::digest" [.bytes xs] = pure (.bytes (dg.blake256 xs)) :=
  call_ext dg _ _ (by rfl) (by rfl) xs
theorem call_keccak (xs : List U8) : call crate (digests dg) u p (d + 1) "sha3::Keccak256::digest" [.bytes xs] = pure (.bytes (dg.keccak256 xs)) :=
  call_ext dg _ _ (by rfl) (by rfl) xs
theorem call_skein (xs : List U8) :
    call crate (digests dg) u p (d + 1) "skein_hash::Skein512::<U32>::digest" [.bytes xs] = pure (.bytes (dg.skein512_256 xs)) :=
  call_ext dg _ _ (by rfl) (by rfl) xs
theorem call_groestl (xs : List U8) : call crate (digests dg) u p (d + 1) "groestl::Groestl256::digest" [.bytes xs] = pure (.bytes (dg.groestl256 xs)) :=
  call_ext dg _ _ (by rfl) (by rfl) xs

theorem to_vec_bytes (xs : List U8) : applyMethod "to_vec" (.bytes xs) [] = pure (.bytes xs) := rfl
theorem clone_bytes (xs : List U8) : applyMethod "clone" (.bytes xs) [] = pure (.bytes xs) := rfl

theorem call_188 (xs ys : List U8) (hx : xs.length ≤ Model.Target.isizeMax u) (hy : ys.length ≤ Model.Target.isizeMax u) :
    call crate (digests dg) u p (d + 6) "lyra2::lyra2" [.lit ((32 : Nat) : Int), .bytes xs, .bytes ys, .lit ((1 : Nat) : Int), .lit ((8 : Nat) : Int),
      .lit ((8 : Nat) : Int)] = (Model.Target.lyra2 u p 32 xs ys 1 8 8 >>= fun xs => pure (.bytes xs)) := by
  rw [call_args "lyra2::lyra2" lyra2.lyra2 (by rfl) (vs := [.u64 32#64, .bytes xs, .bytes ys, .u64 1#64, .u64 8#64, .u64 8#64]) (by rfl)]
  exact call_lyra2 _ _ _ _ _ _ hx hy

theorem call_888 (xs ys : List U8) (hx : xs.length ≤ Model.Target.isizeMax u) (hy : ys.length ≤ Model.Target.isizeMax u) :
    call crate (digests dg) u p (d + 6) "lyra2::lyra2" [.lit ((32 : Nat) : Int), .bytes xs, .bytes ys, .lit ((8 : Nat) : Int), .lit ((8 : Nat) : Int),
      .lit ((8 : Nat) : Int)] = (Model.Target.lyra2 u p 32 xs ys 8 8 8 >>= fun xs => pure (.bytes xs)) := by
  rw [call_args "lyra2::lyra2" lyra2.lyra2 (by rfl) (vs := [.u64 32#64, .bytes xs, .bytes ys, .u64 8#64, .u64 8#64, .u64 8#64]) (by rfl)]
  exact call_lyra2 _ _ _ _ _ _ hx hy

theorem cube_length {xs ys : List U8} (h : Model.CubeHash.sum xs = pure ys) : ys.length = 32 := by
  obtain ⟨h1, h2⟩ := Props.C24_domain xs
  by_cases hx : xs.length < 32
  · obtain ⟨e, he⟩ := h1 hx
    rw [he] at h
    cases h
  · obtain ⟨zs, hz, hl⟩ := h2 (by omega)
    have : pure ys = (pure zs : Res (List U8)) := h.symm.trans hz
    cases this
    exact hl

/-- What a call that returns returns satisfies `Q`. -/
def Ends (m : Res (List U8)) : Prop := ∀ ys, m = pure ys → ys.length = 32

theorem Ends.bind {α : Type} {m : Res α} {f : α → Res (List U8)} (h : ∀ a, Ends (f a)) : Ends (m >>= f) := fun ys e => by
  obtain ⟨a, -, e⟩ := bind_eq_pure e
  exact h a ys e

theorem wrapUp_ends (l : I64) (v : Model.Lyra2.WanderVars) : Ends (Model.Target.wrapUp u p 32 l v) := by
  unfold Model.Target.wrapUp
  refine .bind fun _ => .bind fun _ => .bind fun s ys e => ?_
  rw [Proofs.Target.squeeze_short (le_trans (by decide) (Width.lo (u := u))) p s 32 (by decide)] at e
  rw [← Res.pure_inj e, List.length_take]
  have : ((s.toList.take 12).flatMap toLeBytes64).length = 96 := by
    rw [List.length_flatMap, show (fun x : U64 => (toLeBytes64 x).length) = fun _ => 8 from rfl]
    simp
  rw [this]
  rfl

theorem sum_length {xs ys : List U8} (h : Model.Target.sum u p xs = pure ys) : ys.length = 32 := by
  refine (?_ : Ends (Model.Target.sum u p xs)) ys h
  unfold Model.Target.sum Model.Target.lyra2
  dsimp only
  rw [if_neg (by decide), if_neg (by decide)]
  exact Ends.bind fun _ => .bind fun _ => .bind fun _ => .bind fun _ => .bind fun _ => .bind fun _ => .bind fun _ => .bind fun _ => wrapUp_ends _ _

theorem modSum_length {xs ys : List U8} (h : Model.Target.modSum u p xs = pure ys) : ys.length = 32 := by
  refine (?_ : Ends (Model.Target.modSum u p xs)) ys h
  unfold Model.Target.modSum Model.Target.lyra2mod
  dsimp only
  rw [if_neg (by decide), if_neg (by decide)]
  exact Ends.bind fun _ => .bind fun _ => .bind fun _ => .bind fun _ => .bind fun _ => .bind fun _ => .bind fun _ => .bind fun _ => wrapUp_ends _ _

theorem small_le {n : Nat} (h : n = 32) : n ≤ Model.Target.isizeMax u := by
  have := two_pow_31_le (u := u)
  omega

theorem call_lyra2re (hd : Slices u dg) (input : List U8) :
    call crate (digests dg) u p (d + 7) "lyra2re::sum" [.bytes input] = (Model.Target.lyra2re u p dg input >>= fun xs => pure (.bytes xs)) := by
  rw [call_fn "lyra2re::sum" lyra2re.sum _ (by rfl)]
  have e := call_188 (u := u) (p := p) (d := d) dg (dg.keccak256 (dg.blake256 input)) (dg.keccak256 (dg.blake256 input)) (hd.keccak256 _) (hd.keccak256 _)
  run_src [runFn, lyra2re.sum, call_blake, call_keccak, call_skein, call_groestl, to_vec_bytes, clone_bytes, e, Model.Target.lyra2re]

theorem call_lyra2z (hd : Slices u dg) (input : List U8) :
    call crate (digests dg) u p (d + 7) "lyra2z::sum" [.bytes input] = (Model.Target.lyra2z u p dg input >>= fun xs => pure (.bytes xs)) := by
  rw [call_fn "lyra2z::sum" lyra2z.sum _ (by rfl)]
  have e := call_888 (u := u) (p := p) (d := d) dg (dg.blake256 input) (dg.blake256 input) (hd.blake256 _) (hd.blake256 _)
  run_src [runFn, lyra2z.sum, call_blake, to_vec_bytes, clone_bytes, e, Model.Target.lyra2z]

theorem call_lyra2rev2 (input : List U8) :
    call crate (digests dg) u p (d + 8) "lyra2rev2::sum" [.bytes input] = (Model.Target.lyra2rev2 u p dg input >>= fun xs => pure (.bytes xs)) := by
  rw [call_fn "lyra2rev2::sum" lyra2rev2.sum _ (by rfl)]
  run_src [runFn, lyra2rev2.sum, call_blake, call_keccak, call_skein, to_vec_bytes, Cube.call_sum, Model.Target.lyra2rev2]
  refine bind_congr_pure fun a ha => ?_
  rw [call_sum a (small_le (cube_length ha)), bind_assoc]
  run_src [call_skein, to_vec_bytes, Cube.call_sum]
  refine bind_congr fun b => ?_
  refine bind_congr_pure fun c hc => ?_
  rw [Bmw.call_sum c (by rw [cube_length hc]; decide)]

theorem call_lyra2rev3 (hd : Slices u dg) (input : List U8) :
    call crate (digests dg) u p (d + 8) "lyra2rev3::sum" [.bytes input] = (Model.Target.lyra2rev3 u p dg input >>= fun xs => pure (.bytes xs)) := by
  rw [call_fn "lyra2rev3::sum" lyra2rev3.sum _ (by rfl)]
  have e := Mod.call_sum (u := u) (p := p) (ext := digests dg) (d := d) (dg.blake256 input) (hd.blake256 _)
  run_src [runFn, lyra2rev3.sum, call_blake, to_vec_bytes, Cube.call_sum, e, Model.Target.lyra2rev3]
  refine bind_congr fun a => ?_
  refine bind_congr_pure fun b hb => ?_
  rw [Mod.call_sum b (small_le (cube_length hb)), bind_assoc]
  refine bind_congr_pure fun c hc => ?_
  run_src
  rw [Bmw.call_sum c (by rw [modSum_length hc]; decide)]

end Source.Chains
