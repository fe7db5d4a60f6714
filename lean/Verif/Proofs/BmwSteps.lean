import Verif.Model.Bmw
import Verif.Spec.Bmw
import Mathlib.Tactic.IntervalCases

/-! Every assignment of the BMW compression function computes the word of the table-driven specification. -/

namespace Proofs.Bmw
open Rust Spec.Bmw
open Model.Bmw (circular_left)

theorem rotl (x : W) (n : Nat) (h : n < 32) : circular_left x n = x.rotateLeft n := by
  unfold circular_left BitVec.rotateLeft BitVec.rotateLeftAux
  rw [Nat.mod_eq_of_lt h]

theorem zadd (x : W) : 0 + x = x := BitVec.zero_add x

/-! ## `f_0` -/

theorem mix0 (m h : Words) : mix m h 0 = (m[5] ^^^ h[5]) - (m[7] ^^^ h[7]) + (m[10] ^^^ h[10]) + (m[13] ^^^ h[13]) + (m[14] ^^^ h[14]) := by
  show 0 + _ - _ + _ + _ + _ = _
  rw [zadd]
  simp only [Vector.getElem_ofFn, Fin.getElem_fin]
  rfl

theorem q0_eq (m h : Words) (q : Vector W 32) : Model.Bmw.q0 m h q = q.set 0 (f0 m h 0) := by
  unfold Model.Bmw.q0 f0
  rw [mix0]
  rfl

theorem mix1 (m h : Words) : mix m h 1 = (m[6] ^^^ h[6]) - (m[8] ^^^ h[8]) + (m[11] ^^^ h[11]) + (m[14] ^^^ h[14]) - (m[15] ^^^ h[15]) := by
  show 0 + _ - _ + _ + _ - _ = _
  rw [zadd]
  simp only [Vector.getElem_ofFn, Fin.getElem_fin]
  rfl

theorem q1_eq (m h : Words) (q : Vector W 32) : Model.Bmw.q1 m h q = q.set 1 (f0 m h 1) := by
  unfold Model.Bmw.q1 f0
  rw [mix1]
  rfl

theorem mix2 (m h : Words) : mix m h 2 = (m[0] ^^^ h[0]) + (m[7] ^^^ h[7]) + (m[9] ^^^ h[9]) - (m[12] ^^^ h[12]) + (m[15] ^^^ h[15]) := by
  show 0 + _ + _ + _ - _ + _ = _
  rw [zadd]
  simp only [Vector.getElem_ofFn, Fin.getElem_fin]
  rfl

theorem q2_eq (m h : Words) (q : Vector W 32) : Model.Bmw.q2 m h q = q.set 2 (f0 m h 2) := by
  unfold Model.Bmw.q2 f0
  rw [mix2]
  rfl

theorem mix3 (m h : Words) : mix m h 3 = (m[0] ^^^ h[0]) - (m[1] ^^^ h[1]) + (m[8] ^^^ h[8]) - (m[10] ^^^ h[10]) + (m[13] ^^^ h[13]) := by
  show 0 + _ - _ + _ - _ + _ = _
  rw [zadd]
  simp only [Vector.getElem_ofFn, Fin.getElem_fin]
  rfl

theorem q3_eq (m h : Words) (q : Vector W 32) : Model.Bmw.q3 m h q = q.set 3 (f0 m h 3) := by
  unfold Model.Bmw.q3 f0
  rw [mix3]
  rfl

theorem mix4 (m h : Words) : mix m h 4 = (m[1] ^^^ h[1]) + (m[2] ^^^ h[2]) + (m[9] ^^^ h[9]) - (m[11] ^^^ h[11]) - (m[14] ^^^ h[14]) := by
  show 0 + _ + _ + _ - _ - _ = _
  rw [zadd]
  simp only [Vector.getElem_ofFn, Fin.getElem_fin]
  rfl

theorem q4_eq (m h : Words) (q : Vector W 32) : Model.Bmw.q4 m h q = q.set 4 (f0 m h 4) := by
  unfold Model.Bmw.q4 f0
  rw [mix4]
  rfl

theorem mix5 (m h : Words) : mix m h 5 = (m[3] ^^^ h[3]) - (m[2] ^^^ h[2]) + (m[10] ^^^ h[10]) - (m[12] ^^^ h[12]) + (m[15] ^^^ h[15]) := by
  show 0 + _ - _ + _ - _ + _ = _
  rw [zadd]
  simp only [Vector.getElem_ofFn, Fin.getElem_fin]
  rfl

theorem q5_eq (m h : Words) (q : Vector W 32) : Model.Bmw.q5 m h q = q.set 5 (f0 m h 5) := by
  unfold Model.Bmw.q5 f0
  rw [mix5]
  rfl

theorem mix6 (m h : Words) : mix m h 6 = (m[4] ^^^ h[4]) - (m[0] ^^^ h[0]) - (m[3] ^^^ h[3]) - (m[11] ^^^ h[11]) + (m[13] ^^^ h[13]) := by
  show 0 + _ - _ - _ - _ + _ = _
  rw [zadd]
  simp only [Vector.getElem_ofFn, Fin.getElem_fin]
  rfl

theorem q6_eq (m h : Words) (q : Vector W 32) : Model.Bmw.q6 m h q = q.set 6 (f0 m h 6) := by
  unfold Model.Bmw.q6 f0
  rw [mix6]
  rfl

theorem mix7 (m h : Words) : mix m h 7 = (m[1] ^^^ h[1]) - (m[4] ^^^ h[4]) - (m[5] ^^^ h[5]) - (m[12] ^^^ h[12]) - (m[14] ^^^ h[14]) := by
  show 0 + _ - _ - _ - _ - _ = _
  rw [zadd]
  simp only [Vector.getElem_ofFn, Fin.getElem_fin]
  rfl

theorem q7_eq (m h : Words) (q : Vector W 32) : Model.Bmw.q7 m h q = q.set 7 (f0 m h 7) := by
  unfold Model.Bmw.q7 f0
  rw [mix7]
  rfl

theorem mix8 (m h : Words) : mix m h 8 = (m[2] ^^^ h[2]) - (m[5] ^^^ h[5]) - (m[6] ^^^ h[6]) + (m[13] ^^^ h[13]) - (m[15] ^^^ h[15]) := by
  show 0 + _ - _ - _ + _ - _ = _
  rw [zadd]
  simp only [Vector.getElem_ofFn, Fin.getElem_fin]
  rfl

theorem q8_eq (m h : Words) (q : Vector W 32) : Model.Bmw.q8 m h q = q.set 8 (f0 m h 8) := by
  unfold Model.Bmw.q8 f0
  rw [mix8]
  rfl

theorem mix9 (m h : Words) : mix m h 9 = (m[0] ^^^ h[0]) - (m[3] ^^^ h[3]) + (m[6] ^^^ h[6]) - (m[7] ^^^ h[7]) + (m[14] ^^^ h[14]) := by
  show 0 + _ - _ + _ - _ + _ = _
  rw [zadd]
  simp only [Vector.getElem_ofFn, Fin.getElem_fin]
  rfl

theorem q9_eq (m h : Words) (q : Vector W 32) : Model.Bmw.q9 m h q = q.set 9 (f0 m h 9) := by
  unfold Model.Bmw.q9 f0
  rw [mix9]
  rfl

theorem mix10 (m h : Words) : mix m h 10 = (m[8] ^^^ h[8]) - (m[1] ^^^ h[1]) - (m[4] ^^^ h[4]) - (m[7] ^^^ h[7]) + (m[15] ^^^ h[15]) := by
  show 0 + _ - _ - _ - _ + _ = _
  rw [zadd]
  simp only [Vector.getElem_ofFn, Fin.getElem_fin]
  rfl

theorem q10_eq (m h : Words) (q : Vector W 32) : Model.Bmw.q10 m h q = q.set 10 (f0 m h 10) := by
  unfold Model.Bmw.q10 f0
  rw [mix10]
  rfl

theorem mix11 (m h : Words) : mix m h 11 = (m[8] ^^^ h[8]) - (m[0] ^^^ h[0]) - (m[2] ^^^ h[2]) - (m[5] ^^^ h[5]) + (m[9] ^^^ h[9]) := by
  show 0 + _ - _ - _ - _ + _ = _
  rw [zadd]
  simp only [Vector.getElem_ofFn, Fin.getElem_fin]
  rfl

theorem q11_eq (m h : Words) (q : Vector W 32) : Model.Bmw.q11 m h q = q.set 11 (f0 m h 11) := by
  unfold Model.Bmw.q11 f0
  rw [mix11]
  rfl

theorem mix12 (m h : Words) : mix m h 12 = (m[1] ^^^ h[1]) + (m[3] ^^^ h[3]) - (m[6] ^^^ h[6]) - (m[9] ^^^ h[9]) + (m[10] ^^^ h[10]) := by
  show 0 + _ + _ - _ - _ + _ = _
  rw [zadd]
  simp only [Vector.getElem_ofFn, Fin.getElem_fin]
  rfl

theorem q12_eq (m h : Words) (q : Vector W 32) : Model.Bmw.q12 m h q = q.set 12 (f0 m h 12) := by
  unfold Model.Bmw.q12 f0
  rw [mix12]
  rfl

theorem mix13 (m h : Words) : mix m h 13 = (m[2] ^^^ h[2]) + (m[4] ^^^ h[4]) + (m[7] ^^^ h[7]) + (m[10] ^^^ h[10]) + (m[11] ^^^ h[11]) := by
  show 0 + _ + _ + _ + _ + _ = _
  rw [zadd]
  simp only [Vector.getElem_ofFn, Fin.getElem_fin]
  rfl

theorem q13_eq (m h : Words) (q : Vector W 32) : Model.Bmw.q13 m h q = q.set 13 (f0 m h 13) := by
  unfold Model.Bmw.q13 f0
  rw [mix13]
  rfl

theorem mix14 (m h : Words) : mix m h 14 = (m[3] ^^^ h[3]) - (m[5] ^^^ h[5]) + (m[8] ^^^ h[8]) - (m[11] ^^^ h[11]) - (m[12] ^^^ h[12]) := by
  show 0 + _ - _ + _ - _ - _ = _
  rw [zadd]
  simp only [Vector.getElem_ofFn, Fin.getElem_fin]
  rfl

theorem q14_eq (m h : Words) (q : Vector W 32) : Model.Bmw.q14 m h q = q.set 14 (f0 m h 14) := by
  unfold Model.Bmw.q14 f0
  rw [mix14]
  rfl

theorem mix15 (m h : Words) : mix m h 15 = (m[12] ^^^ h[12]) - (m[4] ^^^ h[4]) - (m[6] ^^^ h[6]) - (m[9] ^^^ h[9]) + (m[13] ^^^ h[13]) := by
  show 0 + _ - _ - _ - _ + _ = _
  rw [zadd]
  simp only [Vector.getElem_ofFn, Fin.getElem_fin]
  rfl

theorem q15_eq (m h : Words) (q : Vector W 32) : Model.Bmw.q15 m h q = q.set 15 (f0 m h 15) := by
  unfold Model.Bmw.q15 f0
  rw [mix15]
  rfl

/-! ## `f_1` -/

theorem range16 {α : Type} (f : α → Nat → α) (a : α) :
    (List.range 16).foldl f a = f (f (f (f (f (f (f (f (f (f (f (f (f (f (f (f a 0) 1) 2) 3) 4) 5) 6) 7) 8) 9) 10) 11) 12) 13) 14) 15 := rfl

theorem range14 {α : Type} (f : α → Nat → α) (a : α) :
    (List.range 14).foldl f a = f (f (f (f (f (f (f (f (f (f (f (f (f (f a 0) 1) 2) 3) 4) 5) 6) 7) 8) 9) 10) 11) 12) 13 := rfl

theorem q16_eq (m h : Words) (q : Vector W 32) (Q : Nat → W) (hQ : ∀ i (h : i < 32), i < 16 → q[i] = Q i) :
    Model.Bmw.q16 m h q = q.set 16 (f1 m h Q 16) := by
  unfold Model.Bmw.q16 f1 expand1
  rw [range16, zadd, hQ 0 (by decide) (by decide), hQ 1 (by decide) (by decide), hQ 2 (by decide) (by decide), hQ 3 (by decide) (by decide), hQ 4 (by decide) (by decide), hQ 5 (by decide) (by decide), hQ 6 (by decide) (by decide), hQ 7 (by decide) (by decide), hQ 8 (by decide) (by decide), hQ 9 (by decide) (by decide), hQ 10 (by decide) (by decide), hQ 11 (by decide) (by decide), hQ 12 (by decide) (by decide), hQ 13 (by decide) (by decide), hQ 14 (by decide) (by decide), hQ 15 (by decide) (by decide)]
  rfl

theorem q17_eq (m h : Words) (q : Vector W 32) (Q : Nat → W) (hQ : ∀ i (h : i < 32), i < 17 → q[i] = Q i) :
    Model.Bmw.q17 m h q = q.set 17 (f1 m h Q 17) := by
  unfold Model.Bmw.q17 f1 expand1
  rw [range16, zadd, hQ 1 (by decide) (by decide), hQ 2 (by decide) (by decide), hQ 3 (by decide) (by decide), hQ 4 (by decide) (by decide), hQ 5 (by decide) (by decide), hQ 6 (by decide) (by decide), hQ 7 (by decide) (by decide), hQ 8 (by decide) (by decide), hQ 9 (by decide) (by decide), hQ 10 (by decide) (by decide), hQ 11 (by decide) (by decide), hQ 12 (by decide) (by decide), hQ 13 (by decide) (by decide), hQ 14 (by decide) (by decide), hQ 15 (by decide) (by decide), hQ 16 (by decide) (by decide)]
  rfl

theorem q18_eq (m h : Words) (q : Vector W 32) (Q : Nat → W) (hQ : ∀ i (h : i < 32), i < 18 → q[i] = Q i) :
    Model.Bmw.q18 m h q = q.set 18 (f1 m h Q 18) := by
  unfold Model.Bmw.q18 f1 expand2
  rw [range14, zadd, hQ 2 (by decide) (by decide), hQ 3 (by decide) (by decide), hQ 4 (by decide) (by decide), hQ 5 (by decide) (by decide), hQ 6 (by decide) (by decide), hQ 7 (by decide) (by decide), hQ 8 (by decide) (by decide), hQ 9 (by decide) (by decide), hQ 10 (by decide) (by decide), hQ 11 (by decide) (by decide), hQ 12 (by decide) (by decide), hQ 13 (by decide) (by decide), hQ 14 (by decide) (by decide), hQ 15 (by decide) (by decide), hQ 16 (by decide) (by decide), hQ 17 (by decide) (by decide)]
  rfl

theorem q19_eq (m h : Words) (q : Vector W 32) (Q : Nat → W) (hQ : ∀ i (h : i < 32), i < 19 → q[i] = Q i) :
    Model.Bmw.q19 m h q = q.set 19 (f1 m h Q 19) := by
  unfold Model.Bmw.q19 f1 expand2
  rw [range14, zadd, hQ 3 (by decide) (by decide), hQ 4 (by decide) (by decide), hQ 5 (by decide) (by decide), hQ 6 (by decide) (by decide), hQ 7 (by decide) (by decide), hQ 8 (by decide) (by decide), hQ 9 (by decide) (by decide), hQ 10 (by decide) (by decide), hQ 11 (by decide) (by decide), hQ 12 (by decide) (by decide), hQ 13 (by decide) (by decide), hQ 14 (by decide) (by decide), hQ 15 (by decide) (by decide), hQ 16 (by decide) (by decide), hQ 17 (by decide) (by decide), hQ 18 (by decide) (by decide)]
  rfl

theorem q20_eq (m h : Words) (q : Vector W 32) (Q : Nat → W) (hQ : ∀ i (h : i < 32), i < 20 → q[i] = Q i) :
    Model.Bmw.q20 m h q = q.set 20 (f1 m h Q 20) := by
  unfold Model.Bmw.q20 f1 expand2
  rw [range14, zadd, hQ 4 (by decide) (by decide), hQ 5 (by decide) (by decide), hQ 6 (by decide) (by decide), hQ 7 (by decide) (by decide), hQ 8 (by decide) (by decide), hQ 9 (by decide) (by decide), hQ 10 (by decide) (by decide), hQ 11 (by decide) (by decide), hQ 12 (by decide) (by decide), hQ 13 (by decide) (by decide), hQ 14 (by decide) (by decide), hQ 15 (by decide) (by decide), hQ 16 (by decide) (by decide), hQ 17 (by decide) (by decide), hQ 18 (by decide) (by decide), hQ 19 (by decide) (by decide)]
  rfl

theorem q21_eq (m h : Words) (q : Vector W 32) (Q : Nat → W) (hQ : ∀ i (h : i < 32), i < 21 → q[i] = Q i) :
    Model.Bmw.q21 m h q = q.set 21 (f1 m h Q 21) := by
  unfold Model.Bmw.q21 f1 expand2
  rw [range14, zadd, hQ 5 (by decide) (by decide), hQ 6 (by decide) (by decide), hQ 7 (by decide) (by decide), hQ 8 (by decide) (by decide), hQ 9 (by decide) (by decide), hQ 10 (by decide) (by decide), hQ 11 (by decide) (by decide), hQ 12 (by decide) (by decide), hQ 13 (by decide) (by decide), hQ 14 (by decide) (by decide), hQ 15 (by decide) (by decide), hQ 16 (by decide) (by decide), hQ 17 (by decide) (by decide), hQ 18 (by decide) (by decide), hQ 19 (by decide) (by decide), hQ 20 (by decide) (by decide)]
  rfl

theorem q22_eq (m h : Words) (q : Vector W 32) (Q : Nat → W) (hQ : ∀ i (h : i < 32), i < 22 → q[i] = Q i) :
    Model.Bmw.q22 m h q = q.set 22 (f1 m h Q 22) := by
  unfold Model.Bmw.q22 f1 expand2
  rw [range14, zadd, hQ 6 (by decide) (by decide), hQ 7 (by decide) (by decide), hQ 8 (by decide) (by decide), hQ 9 (by decide) (by decide), hQ 10 (by decide) (by decide), hQ 11 (by decide) (by decide), hQ 12 (by decide) (by decide), hQ 13 (by decide) (by decide), hQ 14 (by decide) (by decide), hQ 15 (by decide) (by decide), hQ 16 (by decide) (by decide), hQ 17 (by decide) (by decide), hQ 18 (by decide) (by decide), hQ 19 (by decide) (by decide), hQ 20 (by decide) (by decide), hQ 21 (by decide) (by decide)]
  rfl

theorem q23_eq (m h : Words) (q : Vector W 32) (Q : Nat → W) (hQ : ∀ i (h : i < 32), i < 23 → q[i] = Q i) :
    Model.Bmw.q23 m h q = q.set 23 (f1 m h Q 23) := by
  unfold Model.Bmw.q23 f1 expand2
  rw [range14, zadd, hQ 7 (by decide) (by decide), hQ 8 (by decide) (by decide), hQ 9 (by decide) (by decide), hQ 10 (by decide) (by decide), hQ 11 (by decide) (by decide), hQ 12 (by decide) (by decide), hQ 13 (by decide) (by decide), hQ 14 (by decide) (by decide), hQ 15 (by decide) (by decide), hQ 16 (by decide) (by decide), hQ 17 (by decide) (by decide), hQ 18 (by decide) (by decide), hQ 19 (by decide) (by decide), hQ 20 (by decide) (by decide), hQ 21 (by decide) (by decide), hQ 22 (by decide) (by decide)]
  rfl

theorem q24_eq (m h : Words) (q : Vector W 32) (Q : Nat → W) (hQ : ∀ i (h : i < 32), i < 24 → q[i] = Q i) :
    Model.Bmw.q24 m h q = q.set 24 (f1 m h Q 24) := by
  unfold Model.Bmw.q24 f1 expand2
  rw [range14, zadd, hQ 8 (by decide) (by decide), hQ 9 (by decide) (by decide), hQ 10 (by decide) (by decide), hQ 11 (by decide) (by decide), hQ 12 (by decide) (by decide), hQ 13 (by decide) (by decide), hQ 14 (by decide) (by decide), hQ 15 (by decide) (by decide), hQ 16 (by decide) (by decide), hQ 17 (by decide) (by decide), hQ 18 (by decide) (by decide), hQ 19 (by decide) (by decide), hQ 20 (by decide) (by decide), hQ 21 (by decide) (by decide), hQ 22 (by decide) (by decide), hQ 23 (by decide) (by decide)]
  rfl

theorem q25_eq (m h : Words) (q : Vector W 32) (Q : Nat → W) (hQ : ∀ i (h : i < 32), i < 25 → q[i] = Q i) :
    Model.Bmw.q25 m h q = q.set 25 (f1 m h Q 25) := by
  unfold Model.Bmw.q25 f1 expand2
  rw [range14, zadd, hQ 9 (by decide) (by decide), hQ 10 (by decide) (by decide), hQ 11 (by decide) (by decide), hQ 12 (by decide) (by decide), hQ 13 (by decide) (by decide), hQ 14 (by decide) (by decide), hQ 15 (by decide) (by decide), hQ 16 (by decide) (by decide), hQ 17 (by decide) (by decide), hQ 18 (by decide) (by decide), hQ 19 (by decide) (by decide), hQ 20 (by decide) (by decide), hQ 21 (by decide) (by decide), hQ 22 (by decide) (by decide), hQ 23 (by decide) (by decide), hQ 24 (by decide) (by decide)]
  rfl

theorem q26_eq (m h : Words) (q : Vector W 32) (Q : Nat → W) (hQ : ∀ i (h : i < 32), i < 26 → q[i] = Q i) :
    Model.Bmw.q26 m h q = q.set 26 (f1 m h Q 26) := by
  unfold Model.Bmw.q26 f1 expand2
  rw [range14, zadd, hQ 10 (by decide) (by decide), hQ 11 (by decide) (by decide), hQ 12 (by decide) (by decide), hQ 13 (by decide) (by decide), hQ 14 (by decide) (by decide), hQ 15 (by decide) (by decide), hQ 16 (by decide) (by decide), hQ 17 (by decide) (by decide), hQ 18 (by decide) (by decide), hQ 19 (by decide) (by decide), hQ 20 (by decide) (by decide), hQ 21 (by decide) (by decide), hQ 22 (by decide) (by decide), hQ 23 (by decide) (by decide), hQ 24 (by decide) (by decide), hQ 25 (by decide) (by decide)]
  rfl

theorem q27_eq (m h : Words) (q : Vector W 32) (Q : Nat → W) (hQ : ∀ i (h : i < 32), i < 27 → q[i] = Q i) :
    Model.Bmw.q27 m h q = q.set 27 (f1 m h Q 27) := by
  unfold Model.Bmw.q27 f1 expand2
  rw [range14, zadd, hQ 11 (by decide) (by decide), hQ 12 (by decide) (by decide), hQ 13 (by decide) (by decide), hQ 14 (by decide) (by decide), hQ 15 (by decide) (by decide), hQ 16 (by decide) (by decide), hQ 17 (by decide) (by decide), hQ 18 (by decide) (by decide), hQ 19 (by decide) (by decide), hQ 20 (by decide) (by decide), hQ 21 (by decide) (by decide), hQ 22 (by decide) (by decide), hQ 23 (by decide) (by decide), hQ 24 (by decide) (by decide), hQ 25 (by decide) (by decide), hQ 26 (by decide) (by decide)]
  rfl

theorem q28_eq (m h : Words) (q : Vector W 32) (Q : Nat → W) (hQ : ∀ i (h : i < 32), i < 28 → q[i] = Q i) :
    Model.Bmw.q28 m h q = q.set 28 (f1 m h Q 28) := by
  unfold Model.Bmw.q28 f1 expand2
  rw [range14, zadd, hQ 12 (by decide) (by decide), hQ 13 (by decide) (by decide), hQ 14 (by decide) (by decide), hQ 15 (by decide) (by decide), hQ 16 (by decide) (by decide), hQ 17 (by decide) (by decide), hQ 18 (by decide) (by decide), hQ 19 (by decide) (by decide), hQ 20 (by decide) (by decide), hQ 21 (by decide) (by decide), hQ 22 (by decide) (by decide), hQ 23 (by decide) (by decide), hQ 24 (by decide) (by decide), hQ 25 (by decide) (by decide), hQ 26 (by decide) (by decide), hQ 27 (by decide) (by decide)]
  rfl

theorem q29_eq (m h : Words) (q : Vector W 32) (Q : Nat → W) (hQ : ∀ i (h : i < 32), i < 29 → q[i] = Q i) :
    Model.Bmw.q29 m h q = q.set 29 (f1 m h Q 29) := by
  unfold Model.Bmw.q29 f1 expand2
  rw [range14, zadd, hQ 13 (by decide) (by decide), hQ 14 (by decide) (by decide), hQ 15 (by decide) (by decide), hQ 16 (by decide) (by decide), hQ 17 (by decide) (by decide), hQ 18 (by decide) (by decide), hQ 19 (by decide) (by decide), hQ 20 (by decide) (by decide), hQ 21 (by decide) (by decide), hQ 22 (by decide) (by decide), hQ 23 (by decide) (by decide), hQ 24 (by decide) (by decide), hQ 25 (by decide) (by decide), hQ 26 (by decide) (by decide), hQ 27 (by decide) (by decide), hQ 28 (by decide) (by decide)]
  rfl

theorem q30_eq (m h : Words) (q : Vector W 32) (Q : Nat → W) (hQ : ∀ i (h : i < 32), i < 30 → q[i] = Q i) :
    Model.Bmw.q30 m h q = q.set 30 (f1 m h Q 30) := by
  unfold Model.Bmw.q30 f1 expand2
  rw [range14, zadd, hQ 14 (by decide) (by decide), hQ 15 (by decide) (by decide), hQ 16 (by decide) (by decide), hQ 17 (by decide) (by decide), hQ 18 (by decide) (by decide), hQ 19 (by decide) (by decide), hQ 20 (by decide) (by decide), hQ 21 (by decide) (by decide), hQ 22 (by decide) (by decide), hQ 23 (by decide) (by decide), hQ 24 (by decide) (by decide), hQ 25 (by decide) (by decide), hQ 26 (by decide) (by decide), hQ 27 (by decide) (by decide), hQ 28 (by decide) (by decide), hQ 29 (by decide) (by decide)]
  rfl

theorem q31_eq (m h : Words) (q : Vector W 32) (Q : Nat → W) (hQ : ∀ i (h : i < 32), i < 31 → q[i] = Q i) :
    Model.Bmw.q31 m h q = q.set 31 (f1 m h Q 31) := by
  unfold Model.Bmw.q31 f1 expand2
  rw [range14, zadd, hQ 15 (by decide) (by decide), hQ 16 (by decide) (by decide), hQ 17 (by decide) (by decide), hQ 18 (by decide) (by decide), hQ 19 (by decide) (by decide), hQ 20 (by decide) (by decide), hQ 21 (by decide) (by decide), hQ 22 (by decide) (by decide), hQ 23 (by decide) (by decide), hQ 24 (by decide) (by decide), hQ 25 (by decide) (by decide), hQ 26 (by decide) (by decide), hQ 27 (by decide) (by decide), hQ 28 (by decide) (by decide), hQ 29 (by decide) (by decide), hQ 30 (by decide) (by decide)]
  rfl

end Proofs.Bmw
