import Verif.Props.Chains
import Verif.Props.RowsMod

/-! Property C50: a collision of a hash chain is a collision of one of its stages. -/

namespace Props
open Rust Rust.Res Model.Chains

/-! ## C50 -/

/-- Two different 32-byte strings with the same digest. -/
def Collides (f : List U8 → List U8) : Prop := ∃ x y, x ≠ y ∧ x.length = 32 ∧ y.length = 32 ∧ f x = f y

/-- Two different 32-byte strings on which a function of the crate returns the same value. -/
def CollidesRes (f : List U8 → Res (List U8)) : Prop :=
  ∃ x y out, x ≠ y ∧ x.length = 32 ∧ y.length = 32 ∧ (f x).Returns out ∧ (f y).Returns out

/-- `x` and `y` are different 32-byte strings. -/
def Differ (x y : List U8) : Prop := x ≠ y ∧ x.length = 32 ∧ y.length = 32

/-- A digest keeps different strings different, or collides. -/
theorem step_digest {f : List U8 → List U8} (hf : ∀ x, (f x).length = 32) {x y : List U8} (h : Differ x y) :
    Collides f ∨ Differ (f x) (f y) := by
  by_cases e : f x = f y
  · exact .inl ⟨x, y, h.1, h.2.1, h.2.2, e⟩
  · exact .inr ⟨e, hf x, hf y⟩

/-- The same for a function of the crate in front of the rest `g` of the chain. -/
theorem step_res {f : List U8 → Res (List U8)} (hf : ∀ x, x.length = 32 → ∃ out, (f x).Returns out ∧ out.length = 32)
    {x y : List U8} (h : Differ x y) :
    CollidesRes f ∨ ∃ u v, Differ u v ∧ f x = pure u ∧ f y = pure v := by
  obtain ⟨u, hu, lu⟩ := hf x h.2.1
  obtain ⟨v, hv, lv⟩ := hf y h.2.2
  by_cases e : u = v
  · subst e; exact .inl ⟨x, y, u, h.1, h.2.1, h.2.2, hu, hv⟩
  · exact .inr ⟨u, v, ⟨e, lu, lv⟩, hu, hv⟩

theorem stage_lyra2 (p : Profile) (T R C : U64) (h : Accepts 32 32 32 T R C) (x : List U8) (hx : x.length = 32) :
    ∃ out, (Model.Lyra2.lyra2 p 32 x x T R C).Returns out ∧ out.length = 32 := by
  have := C06_lyra2_result p 32 T R C x x (by rw [hx]; exact h)
  exact ⟨_, this, (C03_output_length _ _ _ _ _ _ _ _ this).1⟩

theorem stage_lyra2mod (p : Profile) (x : List U8) (hx : x.length = 32) :
    ∃ out, (Model.Lyra2mod.sum p x).Returns out ∧ out.length = 32 :=
  (C44_sum_domain p x).1 (by omega)

theorem stage_cubehash (x : List U8) (hx : x.length = 32) : ∃ out, (Model.CubeHash.sum x).Returns out ∧ out.length = 32 :=
  (C24_domain x).2 (by omega)

theorem stage_bmw (x : List U8) (hx : x.length = 32) : ∃ out, (Model.Bmw.sum x).Returns out ∧ out.length = 32 :=
  (C28_domain x).1 (by omega)

/-- **C50** `lyra2re`: if two inputs have the same result, then they have the same Blake-256 digest, or two different 32-byte
strings collide under one of the later stages. -/
theorem C50_lyra2re (p : Profile) (d : Digests) (hd : Bytes32 d) (x y out : List U8)
    (hx : (Lyra2re.sum p d x).Returns out) (hy : (Lyra2re.sum p d y).Returns out) :
    d.blake256 x = d.blake256 y ∨ Collides d.keccak256 ∨ CollidesRes (fun h => Model.Lyra2.lyra2 p 32 h h 1 8 8) ∨
      Collides d.skein512_256 ∨ Collides d.groestl256 := by
  refine or_iff_not_imp_left.mpr fun e => ?_
  have h : Differ (d.blake256 x) (d.blake256 y) := ⟨e, hd.blake256 _, hd.blake256 _⟩
  refine (step_digest hd.keccak256 h).imp_right fun h => ?_
  refine (step_res (f := fun h => Model.Lyra2.lyra2 p 32 h h 1 8 8) (stage_lyra2 p 1 8 8 accepts_188) h).imp_right ?_
  rintro ⟨u, v, h, eu, ev⟩
  unfold Lyra2re.sum Returns at hx hy
  dsimp only at hx hy eu ev
  rw [eu, pure_bind] at hx
  rw [ev, pure_bind] at hy
  refine (step_digest hd.skein512_256 h).imp_right fun h => ?_
  exact ⟨_, _, h.1, h.2.1, h.2.2, (pure_inj hx).trans (pure_inj hy).symm⟩

/-- **C50** `lyra2rev2`. -/
theorem C50_lyra2rev2 (p : Profile) (d : Digests) (hd : Bytes32 d) (x y out : List U8)
    (hx : (Lyra2rev2.sum p d x).Returns out) (hy : (Lyra2rev2.sum p d y).Returns out) :
    d.blake256 x = d.blake256 y ∨ Collides d.keccak256 ∨ CollidesRes Model.CubeHash.sum ∨ CollidesRes (Model.Lyra2.sum p) ∨
      Collides d.skein512_256 ∨ CollidesRes Model.Bmw.sum := by
  refine or_iff_not_imp_left.mpr fun e => ?_
  have h : Differ (d.blake256 x) (d.blake256 y) := ⟨e, hd.blake256 _, hd.blake256 _⟩
  refine (step_digest hd.keccak256 h).imp_right fun h => ?_
  refine or_iff_not_imp_left.mpr fun nc => ?_
  obtain ⟨u, v, h, eu, ev⟩ := (step_res stage_cubehash h).resolve_left nc
  unfold Lyra2rev2.sum Returns at hx hy
  dsimp only at hx hy
  rw [eu, pure_bind] at hx
  rw [ev, pure_bind] at hy
  clear eu ev
  refine (step_res (f := Model.Lyra2.sum p) (fun x hx => stage_lyra2 p 1 4 4 accepts_144 x hx) h).imp_right ?_
  rintro ⟨u, v, h, eu, ev⟩
  rw [eu, pure_bind] at hx
  rw [ev, pure_bind] at hy
  clear eu ev
  refine (step_digest hd.skein512_256 h).imp_right fun h => ?_
  obtain ⟨u, v, h, eu, ev⟩ := (step_res stage_cubehash h).resolve_left nc
  rw [eu, pure_bind] at hx
  rw [ev, pure_bind] at hy
  exact ⟨_, _, _, h.1, h.2.1, h.2.2, hx, hy⟩

/-- **C50** `lyra2rev3`. -/
theorem C50_lyra2rev3 (p : Profile) (d : Digests) (hd : Bytes32 d) (x y out : List U8)
    (hx : (Lyra2rev3.sum p d x).Returns out) (hy : (Lyra2rev3.sum p d y).Returns out) :
    d.blake256 x = d.blake256 y ∨ CollidesRes (Model.Lyra2mod.sum p) ∨ CollidesRes Model.CubeHash.sum ∨
      CollidesRes Model.Bmw.sum := by
  refine or_iff_not_imp_left.mpr fun e => ?_
  have h : Differ (d.blake256 x) (d.blake256 y) := ⟨e, hd.blake256 _, hd.blake256 _⟩
  refine or_iff_not_imp_left.mpr fun nc => ?_
  obtain ⟨u, v, h, eu, ev⟩ := (step_res (stage_lyra2mod p) h).resolve_left nc
  unfold Lyra2rev3.sum Returns at hx hy
  dsimp only at hx hy
  rw [eu, pure_bind] at hx
  rw [ev, pure_bind] at hy
  clear eu ev
  refine (step_res stage_cubehash h).imp_right ?_
  rintro ⟨u, v, h, eu, ev⟩
  rw [eu, pure_bind] at hx
  rw [ev, pure_bind] at hy
  clear eu ev
  obtain ⟨u, v, h, eu, ev⟩ := (step_res (stage_lyra2mod p) h).resolve_left nc
  rw [eu, pure_bind] at hx
  rw [ev, pure_bind] at hy
  exact ⟨_, _, _, h.1, h.2.1, h.2.2, hx, hy⟩

/-- **C50** `lyra2z`. -/
theorem C50_lyra2z (p : Profile) (d : Digests) (hd : Bytes32 d) (x y out : List U8)
    (hx : (Lyra2z.sum p d x).Returns out) (hy : (Lyra2z.sum p d y).Returns out) :
    d.blake256 x = d.blake256 y ∨ CollidesRes (fun h => Model.Lyra2.lyra2 p 32 h h 8 8 8) :=
  or_iff_not_imp_left.mpr fun e => ⟨_, _, _, e, hd.blake256 _, hd.blake256 _, hx, hy⟩

/-- The hypotheses are met by digests that ignore their input: then the first alternative holds. -/
example : ∃ d : Digests, Bytes32 d ∧ ∃ x y out, x ≠ y ∧ (Lyra2z.sum .release d x).Returns out ∧ (Lyra2z.sum .release d y).Returns out := by
  let d : Digests := ⟨fun _ => List.replicate 32 0, fun _ => List.replicate 32 0, fun _ => List.replicate 32 0, fun _ => List.replicate 32 0⟩
  have hd : Bytes32 d := ⟨fun _ => rfl, fun _ => rfl, fun _ => rfl, fun _ => rfl⟩
  obtain ⟨out, h, -⟩ := C37_lyra2z_total .release d hd []
  exact ⟨d, hd, [], [1], out, by decide, h, h⟩

end Props
