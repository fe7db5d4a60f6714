import Verif.Props.Outcome
import Verif.Props.Source

/-! Property C61: for which reasons a call can panic. -/

namespace Props
open Rust Source
open Model.Lyra2 (lyra2)
open Model.Lyra2mod (lyra2mod)
open Model.Chains (Digests)

/-- A reason for which a call with valid `time_cost` and `n_rows` can panic in build profile `p`. -/
def Reason (p : Profile) (e : Panic) : Prop := e = .bounds ∨ e = .capacity ∨ (e = .overflow ∧ p = .debug)

theorem reason_of_why {α : Type} {p : Profile} {cap : Prop} {m : Res α} (h : Why p cap m) {e : Panic} (he : m = throw e) : Reason p e := by
  rcases h e he with h | h | h
  · exact .inl h
  · exact .inr (.inr h)
  · exact .inr (.inl h.1)

/-- **C61** (i) `lyra2` and `lyra2mod` panic with one of the two documented messages exactly if a documented condition is violated; any
other panic is an index out of bounds, a failed allocation or, only in a build with overflow checks, an arithmetic overflow. -/
theorem C61_reasons (p : Profile) (k T R C : U64) (pwd salt : List U8) (e : Panic)
    (h : lyra2 p k pwd salt T R C = throw e ∨ lyra2mod p k pwd salt T R C = throw e) :
    (e = .explicit ↔ T.toNat < 1 ∨ R.toNat < 3) ∧ (e = .explicit ∨ Reason p e) := by
  by_cases hd : T.toNat < 1 ∨ R.toNat < 3
  · obtain ⟨h1, h2⟩ := C02_documented_panics p k T R C pwd salt hd
    have : e = .explicit := by
      rcases h with h | h
      · rw [h1, Res.throw_eq, Res.throw_eq] at h; cases h; rfl
      · rw [h2, Res.throw_eq, Res.throw_eq] at h; cases h; rfl
    exact ⟨iff_of_true this hd, .inl this⟩
  · have hr : Reason p e := by
      rcases h with h | h
      · exact reason_of_why (Model.Lyra2.why_lyra2 p k pwd salt T R C (by omega) (by omega)) h
      · exact reason_of_why (Model.Lyra2mod.why_lyra2mod p k pwd salt T R C (by omega) (by omega)) h
    refine ⟨iff_of_false (fun he => ?_) hd, .inr hr⟩
    subst he
    rcases hr with h | h | h <;> simp at h

/-- **C61** (ii) The other functions: `cubehash::sum` and `bmw::sum` have no overflow in any build, whatever their input; `lyra2::sum`,
`lyra2mod::sum` and the chains panic, if at all, for the reasons of (i), whatever the other crates return. -/
theorem C61_reasons_sums (p : Profile) (dg : Digests) (input : List U8) (e : Panic) :
    (Model.CubeHash.sum input = throw e ∨ Model.Bmw.sum input = throw e → e = .bounds) ∧
      (Model.Lyra2.sum p input = throw e ∨ Model.Lyra2mod.sum p input = throw e ∨ Model.Chains.Lyra2re.sum p dg input = throw e ∨
        Model.Chains.Lyra2rev2.sum p dg input = throw e ∨ Model.Chains.Lyra2rev3.sum p dg input = throw e ∨
        Model.Chains.Lyra2z.sum p dg input = throw e → Reason p e) := by
  constructor
  · intro h
    have hw : Why .release False (Model.CubeHash.sum input) ∧ Why .release False (Model.Bmw.sum input) :=
      ⟨Model.CubeHash.why_sum _ _, Model.Bmw.why_sum _ _⟩
    have : e = .bounds ∨ (e = .overflow ∧ Profile.release = .debug) ∨ (e = .capacity ∧ False) := h.elim (hw.1 e) (hw.2 e)
    simpa using this
  · rintro (h | h | h | h | h | h)
    · exact reason_of_why (Model.Lyra2.why_lyra2 p _ _ _ _ _ _ (by decide) (by decide)) h
    · exact reason_of_why (Model.Lyra2mod.why_lyra2mod p _ _ _ _ _ _ (by decide) (by decide)) h
    · exact reason_of_why (Model.Chains.why_lyra2re p dg input) h
    · exact reason_of_why (Model.Chains.why_lyra2rev2 p dg input) h
    · exact reason_of_why (Model.Chains.why_lyra2rev3 p dg input) h
    · exact reason_of_why (Model.Chains.why_lyra2z p dg input) h

theorem bytesOf_throw {m : Res (List U8)} {e : Panic} (h : bytesOf m = throw e) : m = throw e := by
  match m, h with
  | some (.ok xs), h => cases h
  | some (.error _), h => cases h; rfl
  | none, h => cases h

/-- **C61** (iii) The text of the source never leaves the fragment of Rust that the interpreter knows: no call of a function of the crate
gets stuck, in either build. -/
theorem C61_never_stuck (p : Profile) (ext : String → Option (List U8 → List U8)) (depth : Nat) (hd : 7 ≤ depth) (k T R C : U64)
    (pwd salt input : List U8) (hp : pwd.length ≤ isizeMax) (hs : salt.length ≤ isizeMax) (hi : input.length ≤ isizeMax) :
    call crate ext 64 p depth "lyra2::lyra2" [.u64 k, .bytes pwd, .bytes salt, .u64 T, .u64 R, .u64 C] ≠ throw .stuck ∧
      call crate ext 64 p depth "lyra2mod::lyra2mod" [.u64 k, .bytes pwd, .bytes salt, .u64 T, .u64 R, .u64 C] ≠ throw .stuck ∧
      call crate ext 64 p depth "lyra2::sum" [.bytes input] ≠ throw .stuck ∧
      call crate ext 64 p depth "lyra2mod::sum" [.bytes input] ≠ throw .stuck ∧
      call crate ext 64 p depth "cubehash::sum" [.bytes input] ≠ throw .stuck ∧
      call crate ext 64 p depth "bmw::sum" [.bytes input] ≠ throw .stuck := by
  have dg : Digests := ⟨id, id, id, id⟩
  have hr : ¬ Reason p .stuck := by rintro (h | h | h) <;> simp at h
  obtain ⟨e1, e2⟩ := C59_lyra2 p ext depth (by omega) k T R C pwd salt hp hs
  obtain ⟨e3, e4⟩ := C59_sum p ext depth hd input hi
  obtain ⟨e5, e6⟩ := C59_cubehash_bmw p ext depth (by omega) input hi
  rw [e1, e2, e3, e4, e5, e6]
  refine ⟨fun h => ?_, fun h => ?_, fun h => ?_, fun h => ?_, fun h => ?_, fun h => ?_⟩
  · exact (C61_reasons p k T R C pwd salt .stuck (.inl (bytesOf_throw h))).2.elim (by simp) hr
  · exact (C61_reasons p k T R C pwd salt .stuck (.inr (bytesOf_throw h))).2.elim (by simp) hr
  · exact hr ((C61_reasons_sums p dg input .stuck).2 (.inl (bytesOf_throw h)))
  · exact hr ((C61_reasons_sums p dg input .stuck).2 (.inr (.inl (bytesOf_throw h))))
  · exact absurd ((C61_reasons_sums p dg input .stuck).1 (.inl (bytesOf_throw h))) (by simp)
  · exact absurd ((C61_reasons_sums p dg input .stuck).1 (.inr (bytesOf_throw h))) (by simp)

/-- **C61** (iv) The same for the chains, whatever functions from bytes to slices the other crates provide. -/
theorem C61_never_stuck_chains (p : Profile) (dg : Digests) (hs : Slices 64 dg) (depth : Nat) (hd : 8 ≤ depth) (input : List U8) :
    call crate (digests dg) 64 p depth "lyra2re::sum" [.bytes input] ≠ throw .stuck ∧
      call crate (digests dg) 64 p depth "lyra2rev2::sum" [.bytes input] ≠ throw .stuck ∧
      call crate (digests dg) 64 p depth "lyra2rev3::sum" [.bytes input] ≠ throw .stuck ∧
      call crate (digests dg) 64 p depth "lyra2z::sum" [.bytes input] ≠ throw .stuck := by
  have hr : ¬ Reason p .stuck := by rintro (h | h | h) <;> simp at h
  have hsum := (C61_reasons_sums p dg input .stuck).2
  obtain ⟨e1, e2, e3, e4⟩ := C59_chains p dg hs depth hd input
  rw [e1, e2, e3, e4]
  exact ⟨fun h => hr (hsum (.inr (.inr (.inl (bytesOf_throw h))))), fun h => hr (hsum (.inr (.inr (.inr (.inl (bytesOf_throw h)))))),
    fun h => hr (hsum (.inr (.inr (.inr (.inr (.inl (bytesOf_throw h))))))),
    fun h => hr (hsum (.inr (.inr (.inr (.inr (.inr (bytesOf_throw h)))))))⟩

/-- Each reason occurs, an overflow in a debug build only. -/
example :
    lyra2 .release 32 [] [] 0 4 4 = throw .explicit ∧ lyra2 .debug 32 [] [] 1 3 (2 ^ 62) = throw .overflow ∧
      lyra2 .release 32 [] [] 1 3 (2 ^ 62) = throw .bounds ∧ lyra2 .release 32 [] [] 1 3 (2 ^ 59) = throw .capacity :=
  ⟨(C02_documented_panics .release 32 0 4 4 [] [] (by decide)).1,
    by have := (C57_outcome .debug 32 1 3 (2 ^ 62) [] [] (by decide) (.inl rfl)).1
       rwa [show failure 32 ([] : List U8).length ([] : List U8).length 1 3 (2 ^ 62) = some .overflow by decide +kernel] at this,
    by have := (C57_release 32 1 3 (2 ^ 62) [] [] (by decide) (by decide)).1
       rwa [show releaseFailure 32 ([] : List U8).length ([] : List U8).length 1 3 (2 ^ 62) = some .bounds by decide +kernel] at this,
    by have := (C57_release 32 1 3 (2 ^ 59) [] [] (by decide) (by decide)).1
       rwa [show releaseFailure 32 ([] : List U8).length ([] : List U8).length 1 3 (2 ^ 59) = some .capacity by decide +kernel] at this⟩

end Props
