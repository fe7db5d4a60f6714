import Verif.Model.Lyra2
import Verif.Spec.Lyra2
import Verif.Proofs.Bytes
import Mathlib.Logic.Function.Basic
import Mathlib.Tactic.IntervalCases

/-! The sponge: the code's round is the BLAKE2b round, and it is a bijection. -/

namespace Proofs.Sponge
open Rust Rust.Res Model.Lyra2 Spec

/-! ## Rotations -/

theorem rotr64_eq (w : U64) {c : Nat} (h : c < 64) : rotr64 w c = w.rotateRight c := by
  unfold rotr64 BitVec.rotateRight BitVec.rotateRightAux
  rw [Nat.mod_eq_of_lt h]

theorem rotr64_rotr64 (w : U64) {c : Nat} (h0 : 0 < c) (h : c < 64) : rotr64 (rotr64 w c) (64 - c) = w := by
  apply BitVec.eq_of_getLsbD_eq
  intro i hi
  simp only [rotr64, BitVec.getLsbD_or, BitVec.getLsbD_ushiftRight, BitVec.getLsbD_shiftLeft]
  by_cases h1 : i < c
  · have e1 : 64 - c + i < 64 := by omega
    have e2 : ¬ (64 - c + i < 64 - c) := by omega
    have e3 : i < 64 - (64 - c) := by omega
    have e4 : 64 - c + i - (64 - c) = i := by omega
    have e5 : 64 ≤ c + (64 - c + i) := by omega
    simp [e1, e3, e4, BitVec.getLsbD_of_ge w _ e5]
  · have e3 : ¬ (i < 64 - (64 - c)) := by omega
    have e4 : c + (i - (64 - (64 - c))) = i := by omega
    have e5 : i - (64 - (64 - c)) < 64 - c := by omega
    have e6 : 64 ≤ c + (64 - c + i) := by omega
    have e7 : ¬ (64 - c + i < 64) := by omega
    simp [e3, e4, e5, e7, hi, BitVec.getLsbD_of_ge w _ e6]

/-! ## The round -/

theorem vec16 {α : Type} (v : Vector α 16) :
    v = #v[v[0], v[1], v[2], v[3], v[4], v[5], v[6], v[7], v[8], v[9], v[10], v[11], v[12], v[13], v[14], v[15]] := by
  apply Vector.ext
  intro i hi
  interval_cases i <;> rfl

theorem vec4 {α : Type} (v : Vector α 4) : v = #v[v[0], v[1], v[2], v[3]] := by
  apply Vector.ext
  intro i hi
  interval_cases i <;> rfl

theorem ofFn4 {α : Type} (f : Fin 4 → α) : Vector.ofFn f = #v[f 0, f 1, f 2, f 3] := by
  apply Vector.ext
  intro i hi
  interval_cases i <;> simp

/-- The four words of one column after `G`. -/
theorem G_eq (a0 a1 a2 a3 b0 b1 b2 b3 c0 c1 c2 c3 d0 d1 d2 d3 : U64) :
    Blake2b.G ⟨#v[a0, a1, a2, a3], #v[b0, b1, b2, b3], #v[c0, c1, c2, c3], #v[d0, d1, d2, d3]⟩ =
      ⟨#v[(g a0 b0 c0 d0).1, (g a1 b1 c1 d1).1, (g a2 b2 c2 d2).1, (g a3 b3 c3 d3).1],
       #v[(g a0 b0 c0 d0).2.1, (g a1 b1 c1 d1).2.1, (g a2 b2 c2 d2).2.1, (g a3 b3 c3 d3).2.1],
       #v[(g a0 b0 c0 d0).2.2.1, (g a1 b1 c1 d1).2.2.1, (g a2 b2 c2 d2).2.2.1, (g a3 b3 c3 d3).2.2.1],
       #v[(g a0 b0 c0 d0).2.2.2, (g a1 b1 c1 d1).2.2.2, (g a2 b2 c2 d2).2.2.2, (g a3 b3 c3 d3).2.2.2]⟩ := by
  simp only [g, rotr64_eq _ (by decide : 32 < 64), rotr64_eq _ (by decide : 24 < 64), rotr64_eq _ (by decide : 16 < 64),
    rotr64_eq _ (by decide : 63 < 64)]
  rfl

theorem gAt_eq (v : State) (i j k l : Fin 16) :
    gAt v i j k l = (((v.set i (g v[i] v[j] v[k] v[l]).1).set j (g v[i] v[j] v[k] v[l]).2.1).set k
      (g v[i] v[j] v[k] v[l]).2.2.1).set l (g v[i] v[j] v[k] v[l]).2.2.2 := rfl

theorem gAt_0 (x0 x1 x2 x3 x4 x5 x6 x7 x8 x9 x10 x11 x12 x13 x14 x15 : U64) :
    gAt #v[x0, x1, x2, x3, x4, x5, x6, x7, x8, x9, x10, x11, x12, x13, x14, x15] 0 4 8 12 =
      #v[(g x0 x4 x8 x12).1, x1, x2, x3, (g x0 x4 x8 x12).2.1, x5, x6, x7,
         (g x0 x4 x8 x12).2.2.1, x9, x10, x11, (g x0 x4 x8 x12).2.2.2, x13, x14, x15] := by
  rw [gAt_eq]
  show (((#v[x0, x1, x2, x3, x4, x5, x6, x7, x8, x9, x10, x11, x12, x13, x14, x15]
    |>.set 0 (g x0 x4 x8 x12).1).set 4 (g x0 x4 x8 x12).2.1).set 8 (g x0 x4 x8 x12).2.2.1).set 12 (g x0 x4 x8 x12).2.2.2 = _
  generalize g x0 x4 x8 x12 = r
  rfl

theorem gAt_1 (x0 x1 x2 x3 x4 x5 x6 x7 x8 x9 x10 x11 x12 x13 x14 x15 : U64) :
    gAt #v[x0, x1, x2, x3, x4, x5, x6, x7, x8, x9, x10, x11, x12, x13, x14, x15] 1 5 9 13 =
      #v[x0, (g x1 x5 x9 x13).1, x2, x3, x4, (g x1 x5 x9 x13).2.1, x6, x7,
         x8, (g x1 x5 x9 x13).2.2.1, x10, x11, x12, (g x1 x5 x9 x13).2.2.2, x14, x15] := by
  rw [gAt_eq]
  show (((#v[x0, x1, x2, x3, x4, x5, x6, x7, x8, x9, x10, x11, x12, x13, x14, x15]
    |>.set 1 (g x1 x5 x9 x13).1).set 5 (g x1 x5 x9 x13).2.1).set 9 (g x1 x5 x9 x13).2.2.1).set 13 (g x1 x5 x9 x13).2.2.2 = _
  generalize g x1 x5 x9 x13 = r
  rfl

theorem gAt_2 (x0 x1 x2 x3 x4 x5 x6 x7 x8 x9 x10 x11 x12 x13 x14 x15 : U64) :
    gAt #v[x0, x1, x2, x3, x4, x5, x6, x7, x8, x9, x10, x11, x12, x13, x14, x15] 2 6 10 14 =
      #v[x0, x1, (g x2 x6 x10 x14).1, x3, x4, x5, (g x2 x6 x10 x14).2.1, x7,
         x8, x9, (g x2 x6 x10 x14).2.2.1, x11, x12, x13, (g x2 x6 x10 x14).2.2.2, x15] := by
  rw [gAt_eq]
  show (((#v[x0, x1, x2, x3, x4, x5, x6, x7, x8, x9, x10, x11, x12, x13, x14, x15]
    |>.set 2 (g x2 x6 x10 x14).1).set 6 (g x2 x6 x10 x14).2.1).set 10 (g x2 x6 x10 x14).2.2.1).set 14 (g x2 x6 x10 x14).2.2.2 = _
  generalize g x2 x6 x10 x14 = r
  rfl

theorem gAt_3 (x0 x1 x2 x3 x4 x5 x6 x7 x8 x9 x10 x11 x12 x13 x14 x15 : U64) :
    gAt #v[x0, x1, x2, x3, x4, x5, x6, x7, x8, x9, x10, x11, x12, x13, x14, x15] 3 7 11 15 =
      #v[x0, x1, x2, (g x3 x7 x11 x15).1, x4, x5, x6, (g x3 x7 x11 x15).2.1,
         x8, x9, x10, (g x3 x7 x11 x15).2.2.1, x12, x13, x14, (g x3 x7 x11 x15).2.2.2] := by
  rw [gAt_eq]
  show (((#v[x0, x1, x2, x3, x4, x5, x6, x7, x8, x9, x10, x11, x12, x13, x14, x15]
    |>.set 3 (g x3 x7 x11 x15).1).set 7 (g x3 x7 x11 x15).2.1).set 11 (g x3 x7 x11 x15).2.2.1).set 15 (g x3 x7 x11 x15).2.2.2 = _
  generalize g x3 x7 x11 x15 = r
  rfl

theorem gAt_4 (x0 x1 x2 x3 x4 x5 x6 x7 x8 x9 x10 x11 x12 x13 x14 x15 : U64) :
    gAt #v[x0, x1, x2, x3, x4, x5, x6, x7, x8, x9, x10, x11, x12, x13, x14, x15] 0 5 10 15 =
      #v[(g x0 x5 x10 x15).1, x1, x2, x3, x4, (g x0 x5 x10 x15).2.1, x6, x7,
         x8, x9, (g x0 x5 x10 x15).2.2.1, x11, x12, x13, x14, (g x0 x5 x10 x15).2.2.2] := by
  rw [gAt_eq]
  show (((#v[x0, x1, x2, x3, x4, x5, x6, x7, x8, x9, x10, x11, x12, x13, x14, x15]
    |>.set 0 (g x0 x5 x10 x15).1).set 5 (g x0 x5 x10 x15).2.1).set 10 (g x0 x5 x10 x15).2.2.1).set 15 (g x0 x5 x10 x15).2.2.2 = _
  generalize g x0 x5 x10 x15 = r
  rfl

theorem gAt_5 (x0 x1 x2 x3 x4 x5 x6 x7 x8 x9 x10 x11 x12 x13 x14 x15 : U64) :
    gAt #v[x0, x1, x2, x3, x4, x5, x6, x7, x8, x9, x10, x11, x12, x13, x14, x15] 1 6 11 12 =
      #v[x0, (g x1 x6 x11 x12).1, x2, x3, x4, x5, (g x1 x6 x11 x12).2.1, x7,
         x8, x9, x10, (g x1 x6 x11 x12).2.2.1, (g x1 x6 x11 x12).2.2.2, x13, x14, x15] := by
  rw [gAt_eq]
  show (((#v[x0, x1, x2, x3, x4, x5, x6, x7, x8, x9, x10, x11, x12, x13, x14, x15]
    |>.set 1 (g x1 x6 x11 x12).1).set 6 (g x1 x6 x11 x12).2.1).set 11 (g x1 x6 x11 x12).2.2.1).set 12 (g x1 x6 x11 x12).2.2.2 = _
  generalize g x1 x6 x11 x12 = r
  rfl

theorem gAt_6 (x0 x1 x2 x3 x4 x5 x6 x7 x8 x9 x10 x11 x12 x13 x14 x15 : U64) :
    gAt #v[x0, x1, x2, x3, x4, x5, x6, x7, x8, x9, x10, x11, x12, x13, x14, x15] 2 7 8 13 =
      #v[x0, x1, (g x2 x7 x8 x13).1, x3, x4, x5, x6, (g x2 x7 x8 x13).2.1,
         (g x2 x7 x8 x13).2.2.1, x9, x10, x11, x12, (g x2 x7 x8 x13).2.2.2, x14, x15] := by
  rw [gAt_eq]
  show (((#v[x0, x1, x2, x3, x4, x5, x6, x7, x8, x9, x10, x11, x12, x13, x14, x15]
    |>.set 2 (g x2 x7 x8 x13).1).set 7 (g x2 x7 x8 x13).2.1).set 8 (g x2 x7 x8 x13).2.2.1).set 13 (g x2 x7 x8 x13).2.2.2 = _
  generalize g x2 x7 x8 x13 = r
  rfl

theorem gAt_7 (x0 x1 x2 x3 x4 x5 x6 x7 x8 x9 x10 x11 x12 x13 x14 x15 : U64) :
    gAt #v[x0, x1, x2, x3, x4, x5, x6, x7, x8, x9, x10, x11, x12, x13, x14, x15] 3 4 9 14 =
      #v[x0, x1, x2, (g x3 x4 x9 x14).1, (g x3 x4 x9 x14).2.1, x5, x6, x7,
         x8, (g x3 x4 x9 x14).2.2.1, x10, x11, x12, x13, (g x3 x4 x9 x14).2.2.2, x15] := by
  rw [gAt_eq]
  show (((#v[x0, x1, x2, x3, x4, x5, x6, x7, x8, x9, x10, x11, x12, x13, x14, x15]
    |>.set 3 (g x3 x4 x9 x14).1).set 4 (g x3 x4 x9 x14).2.1).set 9 (g x3 x4 x9 x14).2.2.1).set 14 (g x3 x4 x9 x14).2.2.2 = _
  generalize g x3 x4 x9 x14 = r
  rfl

theorem gAt_columns (x : Vector U64 16) :
    gAt (gAt (gAt (gAt x 0 4 8 12) 1 5 9 13) 2 6 10 14) 3 7 11 15 =
      #v[(g x[0] x[4] x[8] x[12]).1, (g x[1] x[5] x[9] x[13]).1, (g x[2] x[6] x[10] x[14]).1, (g x[3] x[7] x[11] x[15]).1,
         (g x[0] x[4] x[8] x[12]).2.1, (g x[1] x[5] x[9] x[13]).2.1, (g x[2] x[6] x[10] x[14]).2.1, (g x[3] x[7] x[11] x[15]).2.1,
         (g x[0] x[4] x[8] x[12]).2.2.1, (g x[1] x[5] x[9] x[13]).2.2.1, (g x[2] x[6] x[10] x[14]).2.2.1, (g x[3] x[7] x[11] x[15]).2.2.1,
         (g x[0] x[4] x[8] x[12]).2.2.2, (g x[1] x[5] x[9] x[13]).2.2.2, (g x[2] x[6] x[10] x[14]).2.2.2, (g x[3] x[7] x[11] x[15]).2.2.2] := by
  rw [vec16 x]
  generalize x[0] = x0, x[1] = x1, x[2] = x2, x[3] = x3, x[4] = x4, x[5] = x5, x[6] = x6, x[7] = x7, x[8] = x8,
    x[9] = x9, x[10] = x10, x[11] = x11, x[12] = x12, x[13] = x13, x[14] = x14, x[15] = x15
  rw [gAt_0, gAt_1, gAt_2, gAt_3]
  rfl

theorem gAt_diagonals (x : Vector U64 16) :
    gAt (gAt (gAt (gAt x 0 5 10 15) 1 6 11 12) 2 7 8 13) 3 4 9 14 =
      #v[(g x[0] x[5] x[10] x[15]).1, (g x[1] x[6] x[11] x[12]).1, (g x[2] x[7] x[8] x[13]).1, (g x[3] x[4] x[9] x[14]).1,
         (g x[3] x[4] x[9] x[14]).2.1, (g x[0] x[5] x[10] x[15]).2.1, (g x[1] x[6] x[11] x[12]).2.1, (g x[2] x[7] x[8] x[13]).2.1,
         (g x[2] x[7] x[8] x[13]).2.2.1, (g x[3] x[4] x[9] x[14]).2.2.1, (g x[0] x[5] x[10] x[15]).2.2.1, (g x[1] x[6] x[11] x[12]).2.2.1,
         (g x[1] x[6] x[11] x[12]).2.2.2, (g x[2] x[7] x[8] x[13]).2.2.2, (g x[3] x[4] x[9] x[14]).2.2.2, (g x[0] x[5] x[10] x[15]).2.2.2] := by
  rw [vec16 x]
  generalize x[0] = x0, x[1] = x1, x[2] = x2, x[3] = x3, x[4] = x4, x[5] = x5, x[6] = x6, x[7] = x7, x[8] = x8,
    x[9] = x9, x[10] = x10, x[11] = x11, x[12] = x12, x[13] = x13, x[14] = x14, x[15] = x15
  rw [gAt_4, gAt_5, gAt_6, gAt_7]
  rfl

theorem spec_columns (x : Vector U64 16) :
    Blake2b.ofRows (Blake2b.G (Blake2b.rows x)) =
      #v[(g x[0] x[4] x[8] x[12]).1, (g x[1] x[5] x[9] x[13]).1, (g x[2] x[6] x[10] x[14]).1, (g x[3] x[7] x[11] x[15]).1,
         (g x[0] x[4] x[8] x[12]).2.1, (g x[1] x[5] x[9] x[13]).2.1, (g x[2] x[6] x[10] x[14]).2.1, (g x[3] x[7] x[11] x[15]).2.1,
         (g x[0] x[4] x[8] x[12]).2.2.1, (g x[1] x[5] x[9] x[13]).2.2.1, (g x[2] x[6] x[10] x[14]).2.2.1, (g x[3] x[7] x[11] x[15]).2.2.1,
         (g x[0] x[4] x[8] x[12]).2.2.2, (g x[1] x[5] x[9] x[13]).2.2.2, (g x[2] x[6] x[10] x[14]).2.2.2, (g x[3] x[7] x[11] x[15]).2.2.2] := by
  unfold Blake2b.rows
  rw [G_eq]
  rfl

theorem rows_ofRows (x : Blake2b.Rows) : Blake2b.rows (Blake2b.ofRows x) = x := by
  obtain ⟨a, b, c, d⟩ := x
  rw [vec4 a, vec4 b, vec4 c, vec4 d]
  rfl

theorem diag_rows (x : Vector U64 16) :
    Blake2b.diagonalise (Blake2b.rows x) = ⟨#v[x[0], x[1], x[2], x[3]], #v[x[5], x[6], x[7], x[4]],
      #v[x[10], x[11], x[8], x[9]], #v[x[15], x[12], x[13], x[14]]⟩ := by
  unfold Blake2b.diagonalise Blake2b.rotRow Blake2b.rows
  simp only [ofFn4]
  rfl

theorem spec_diagonals (x : Vector U64 16) :
    Blake2b.ofRows (Blake2b.undiagonalise (Blake2b.G (Blake2b.diagonalise (Blake2b.rows x)))) =
      #v[(g x[0] x[5] x[10] x[15]).1, (g x[1] x[6] x[11] x[12]).1, (g x[2] x[7] x[8] x[13]).1, (g x[3] x[4] x[9] x[14]).1,
         (g x[3] x[4] x[9] x[14]).2.1, (g x[0] x[5] x[10] x[15]).2.1, (g x[1] x[6] x[11] x[12]).2.1, (g x[2] x[7] x[8] x[13]).2.1,
         (g x[2] x[7] x[8] x[13]).2.2.1, (g x[3] x[4] x[9] x[14]).2.2.1, (g x[0] x[5] x[10] x[15]).2.2.1, (g x[1] x[6] x[11] x[12]).2.2.1,
         (g x[1] x[6] x[11] x[12]).2.2.2, (g x[2] x[7] x[8] x[13]).2.2.2, (g x[3] x[4] x[9] x[14]).2.2.2, (g x[0] x[5] x[10] x[15]).2.2.2] := by
  rw [diag_rows, G_eq]
  unfold Blake2b.undiagonalise Blake2b.rotRow
  simp only [ofFn4]
  rfl

/-- The code's round is the BLAKE2b round. -/
theorem round_eq (v : State) : round_lyra v = Blake2b.round v := by
  show gAt (gAt (gAt (gAt (gAt (gAt (gAt (gAt v 0 4 8 12) 1 5 9 13) 2 6 10 14) 3 7 11 15) 0 5 10 15) 1 6 11 12) 2 7 8 13)
    3 4 9 14 = Blake2b.ofRows (Blake2b.undiagonalise (Blake2b.G (Blake2b.diagonalise (Blake2b.G (Blake2b.rows v)))))
  rw [gAt_columns, gAt_diagonals, ← spec_columns, ← spec_diagonals, rows_ofRows]

theorem blake2b_eq (v : State) : blake2b_lyra v = Lyra2.f v := by
  simp only [blake2b_lyra, Lyra2.f, Blake2b.rounds, round_eq]

theorem reduced_eq (v : State) : reduced_blake2b_lyra v = Lyra2.fρ v := round_eq v

theorem init_eq : init_state = Lyra2.start := by decide +kernel

end Proofs.Sponge
