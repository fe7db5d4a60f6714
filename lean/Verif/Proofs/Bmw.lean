import Verif.Proofs.BmwSteps
import Verif.Proofs.Bytes

/-! The compression function of the BMW stage is that of Blue Midnight Wish 256. -/

namespace Proofs.Bmw
open Rust Rust.Res Spec Spec.Bmw Model.Utils

/-! ## The quadrupled pipe -/

/-- Word `i` of the quadrupled pipe of the specification. -/
def Q (m h : Words) (i : Nat) : W := (Spec.Bmw.pipe m h 32).toArray.getD i 0

theorem getD_left (l r : List W) {i : Nat} (h : i < l.length) : (l ++ r).getD i 0 = l.getD i 0 := by
  rw [List.getD_eq_getElem?_getD, List.getD_eq_getElem?_getD, List.getElem?_append_left h]

theorem getD_last (l : List W) (x : W) : (l ++ [x]).getD l.length 0 = x := by
  rw [List.getD_eq_getElem?_getD, List.getElem?_append_right (Nat.le_refl _), Nat.sub_self]
  rfl

theorem pipe_length (m h : Words) (n : Nat) : (Spec.Bmw.pipe m h n).length = n := by
  induction n with
  | zero => rfl
  | succ n ih => unfold Spec.Bmw.pipe; simp [ih]

theorem pipe_getD (m h : Words) {i n : Nat} (hi : i < n) (k : Nat) :
    (Spec.Bmw.pipe m h (n + k)).getD i 0 = (Spec.Bmw.pipe m h n).getD i 0 := by
  induction k with
  | zero => rfl
  | succ k ih =>
    rw [← ih, ← Nat.add_assoc]
    conv => lhs; unfold Spec.Bmw.pipe
    exact getD_left _ _ (by rw [pipe_length]; omega)

theorem Q_eq (m h : Words) {i n : Nat} (hi : i < n) (hn : n ≤ 32) : (Spec.Bmw.pipe m h n).getD i 0 = Q m h i := by
  unfold Q
  have := pipe_getD m h hi (32 - n)
  rw [show n + (32 - n) = 32 by omega] at this
  rw [← this]
  simp [List.getD]

theorem Q_low (m h : Words) (i : Fin 16) : Q m h i = f0 m h i := by
  rw [← Q_eq m h (Nat.lt_succ_self i.val) (by omega)]
  unfold Spec.Bmw.pipe
  have := getD_last (Spec.Bmw.pipe m h i.val) (f0 m h i)
  rw [pipe_length] at this
  dsimp only
  rw [dif_pos i.isLt]
  exact this

theorem foldl_congr {α β : Type} (l : List β) (f g : α → β → α) (a : α) (h : ∀ x ∈ l, ∀ a, f a x = g a x) : l.foldl f a = l.foldl g a := by
  induction l generalizing a with
  | nil => rfl
  | cons x l ih =>
    rw [List.foldl_cons, List.foldl_cons, h x (by simp), ih _ fun y hy => h y (by simp [hy])]

theorem f1_congr (m h : Words) (q q' : Nat → W) {j : Nat} (hj : 16 ≤ j) (e : ∀ i, i < j → q i = q' i) : f1 m h q j = f1 m h q' j := by
  unfold f1
  split
  · unfold expand1
    rw [foldl_congr _ _ (fun acc i => acc + s ((i + 1) % 4) (q' (j - 16 + i))) 0 fun i hi a => by
      rw [e _ (by have := List.mem_range.mp hi; omega)]]
  · unfold expand2
    rw [foldl_congr _ _ (fun acc i => acc + (if i % 2 = 0 then q' (j - 16 + i) else r (i / 2 + 1) (q' (j - 16 + i)))) 0 fun i hi a => by
      rw [e _ (by have := List.mem_range.mp hi; omega)], e (j - 2) (by omega), e (j - 1) (by omega)]

theorem Q_high (m h : Words) {j : Nat} (h1 : 16 ≤ j) (h2 : j < 32) : Q m h j = f1 m h (Q m h) j := by
  rw [← Q_eq m h (Nat.lt_succ_self j) (by omega)]
  unfold Spec.Bmw.pipe
  have := getD_last (Spec.Bmw.pipe m h j) (f1 m h (fun i => (Spec.Bmw.pipe m h j).getD i 0) j)
  rw [pipe_length] at this
  dsimp only
  rw [dif_neg (by omega), this]
  exact f1_congr m h _ _ h1 fun i hi => Q_eq m h hi (by omega)

theorem set_inv {Q : Nat → W} {q : Vector W 32} {k : Nat} (hk : k < 32) (hq : ∀ i (h : i < 32), i < k → q[i] = Q i) {v : W}
    (hv : v = Q k) : ∀ i (h : i < 32), i < k + 1 → (q.set k v)[i] = Q i := by
  intro i h hi
  rw [Vector.getElem_set]
  split
  · subst_vars; rfl
  · exact hq i h (by omega)

theorem pipe_eq (m h : Words) (q : Vector W 32) : ∀ i (hi : i < 32), (Model.Bmw.pipe m h q)[i] = Q m h i := by
  have h0 : ∀ i (_ : i < 32), i < 0 → q[i] = Q m h i := fun i _ h => absurd h (by omega)
  have h1 := set_inv (k := 0) (by decide) h0 (Q_low m h 0).symm
  rw [← q0_eq] at h1
  have h2 := set_inv (k := 1) (by decide) h1 (Q_low m h 1).symm
  rw [← q1_eq] at h2
  have h3 := set_inv (k := 2) (by decide) h2 (Q_low m h 2).symm
  rw [← q2_eq] at h3
  have h4 := set_inv (k := 3) (by decide) h3 (Q_low m h 3).symm
  rw [← q3_eq] at h4
  have h5 := set_inv (k := 4) (by decide) h4 (Q_low m h 4).symm
  rw [← q4_eq] at h5
  have h6 := set_inv (k := 5) (by decide) h5 (Q_low m h 5).symm
  rw [← q5_eq] at h6
  have h7 := set_inv (k := 6) (by decide) h6 (Q_low m h 6).symm
  rw [← q6_eq] at h7
  have h8 := set_inv (k := 7) (by decide) h7 (Q_low m h 7).symm
  rw [← q7_eq] at h8
  have h9 := set_inv (k := 8) (by decide) h8 (Q_low m h 8).symm
  rw [← q8_eq] at h9
  have h10 := set_inv (k := 9) (by decide) h9 (Q_low m h 9).symm
  rw [← q9_eq] at h10
  have h11 := set_inv (k := 10) (by decide) h10 (Q_low m h 10).symm
  rw [← q10_eq] at h11
  have h12 := set_inv (k := 11) (by decide) h11 (Q_low m h 11).symm
  rw [← q11_eq] at h12
  have h13 := set_inv (k := 12) (by decide) h12 (Q_low m h 12).symm
  rw [← q12_eq] at h13
  have h14 := set_inv (k := 13) (by decide) h13 (Q_low m h 13).symm
  rw [← q13_eq] at h14
  have h15 := set_inv (k := 14) (by decide) h14 (Q_low m h 14).symm
  rw [← q14_eq] at h15
  have h16 := set_inv (k := 15) (by decide) h15 (Q_low m h 15).symm
  rw [← q15_eq] at h16
  have h17 := set_inv (k := 16) (by decide) h16 (Q_high m h (j := 16) (by decide) (by decide)).symm
  rw [← q16_eq m h _ _ h16] at h17
  have h18 := set_inv (k := 17) (by decide) h17 (Q_high m h (j := 17) (by decide) (by decide)).symm
  rw [← q17_eq m h _ _ h17] at h18
  have h19 := set_inv (k := 18) (by decide) h18 (Q_high m h (j := 18) (by decide) (by decide)).symm
  rw [← q18_eq m h _ _ h18] at h19
  have h20 := set_inv (k := 19) (by decide) h19 (Q_high m h (j := 19) (by decide) (by decide)).symm
  rw [← q19_eq m h _ _ h19] at h20
  have h21 := set_inv (k := 20) (by decide) h20 (Q_high m h (j := 20) (by decide) (by decide)).symm
  rw [← q20_eq m h _ _ h20] at h21
  have h22 := set_inv (k := 21) (by decide) h21 (Q_high m h (j := 21) (by decide) (by decide)).symm
  rw [← q21_eq m h _ _ h21] at h22
  have h23 := set_inv (k := 22) (by decide) h22 (Q_high m h (j := 22) (by decide) (by decide)).symm
  rw [← q22_eq m h _ _ h22] at h23
  have h24 := set_inv (k := 23) (by decide) h23 (Q_high m h (j := 23) (by decide) (by decide)).symm
  rw [← q23_eq m h _ _ h23] at h24
  have h25 := set_inv (k := 24) (by decide) h24 (Q_high m h (j := 24) (by decide) (by decide)).symm
  rw [← q24_eq m h _ _ h24] at h25
  have h26 := set_inv (k := 25) (by decide) h25 (Q_high m h (j := 25) (by decide) (by decide)).symm
  rw [← q25_eq m h _ _ h25] at h26
  have h27 := set_inv (k := 26) (by decide) h26 (Q_high m h (j := 26) (by decide) (by decide)).symm
  rw [← q26_eq m h _ _ h26] at h27
  have h28 := set_inv (k := 27) (by decide) h27 (Q_high m h (j := 27) (by decide) (by decide)).symm
  rw [← q27_eq m h _ _ h27] at h28
  have h29 := set_inv (k := 28) (by decide) h28 (Q_high m h (j := 28) (by decide) (by decide)).symm
  rw [← q28_eq m h _ _ h28] at h29
  have h30 := set_inv (k := 29) (by decide) h29 (Q_high m h (j := 29) (by decide) (by decide)).symm
  rw [← q29_eq m h _ _ h29] at h30
  have h31 := set_inv (k := 30) (by decide) h30 (Q_high m h (j := 30) (by decide) (by decide)).symm
  rw [← q30_eq m h _ _ h30] at h31
  have h32 := set_inv (k := 31) (by decide) h31 (Q_high m h (j := 31) (by decide) (by decide)).symm
  rw [← q31_eq m h _ _ h31] at h32
  intro i hi
  exact h32 i hi hi

/-! ## Folding -/

theorem vec16 (v : Words) : v = #v[v[0], v[1], v[2], v[3], v[4], v[5], v[6], v[7], v[8], v[9], v[10], v[11], v[12], v[13], v[14], v[15]] := by
  apply Vector.ext
  intro i hi
  interval_cases i <;> rfl

/-- `XL` and `XH` of the specification. -/
def XL (Q : Nat → W) : W := Q 16 ^^^ Q 17 ^^^ Q 18 ^^^ Q 19 ^^^ Q 20 ^^^ Q 21 ^^^ Q 22 ^^^ Q 23
def XH (Q : Nat → W) : W := XL Q ^^^ Q 24 ^^^ Q 25 ^^^ Q 26 ^^^ Q 27 ^^^ Q 28 ^^^ Q 29 ^^^ Q 30 ^^^ Q 31

theorem shl0 (x : W) : x <<< (Int.natAbs 0) = x := BitVec.shiftLeft_zero x

theorem f2_0 (m : Words) (Q : Nat → W) : (f2 m Q)[0] = ((XH Q <<< 5) ^^^ (Q 16 >>> 5) ^^^ m[0]) + (XL Q ^^^ Q 24 ^^^ Q 0) := by
  unfold f2
  simp only [Vector.getElem_ofFn]
  rw [dif_pos (by decide)]
  rfl

theorem f2_1 (m : Words) (Q : Nat → W) : (f2 m Q)[1] = ((XH Q >>> 7) ^^^ (Q 17 <<< 8) ^^^ m[1]) + (XL Q ^^^ Q 25 ^^^ Q 1) := by
  unfold f2
  simp only [Vector.getElem_ofFn]
  rw [dif_pos (by decide)]
  rfl

theorem f2_2 (m : Words) (Q : Nat → W) : (f2 m Q)[2] = ((XH Q >>> 5) ^^^ (Q 18 <<< 5) ^^^ m[2]) + (XL Q ^^^ Q 26 ^^^ Q 2) := by
  unfold f2
  simp only [Vector.getElem_ofFn]
  rw [dif_pos (by decide)]
  rfl

theorem f2_3 (m : Words) (Q : Nat → W) : (f2 m Q)[3] = ((XH Q >>> 1) ^^^ (Q 19 <<< 5) ^^^ m[3]) + (XL Q ^^^ Q 27 ^^^ Q 3) := by
  unfold f2
  simp only [Vector.getElem_ofFn]
  rw [dif_pos (by decide)]
  rfl

theorem f2_4 (m : Words) (Q : Nat → W) : (f2 m Q)[4] = ((XH Q >>> 3) ^^^ Q 20 ^^^ m[4]) + (XL Q ^^^ Q 28 ^^^ Q 4) := by
  unfold f2
  simp only [Vector.getElem_ofFn]
  rw [dif_pos (by decide)]
  exact congrArg (fun t => (_ ^^^ t ^^^ _) + _) (shl0 _)

theorem f2_5 (m : Words) (Q : Nat → W) : (f2 m Q)[5] = ((XH Q <<< 6) ^^^ (Q 21 >>> 6) ^^^ m[5]) + (XL Q ^^^ Q 29 ^^^ Q 5) := by
  unfold f2
  simp only [Vector.getElem_ofFn]
  rw [dif_pos (by decide)]
  rfl

theorem f2_6 (m : Words) (Q : Nat → W) : (f2 m Q)[6] = ((XH Q >>> 4) ^^^ (Q 22 <<< 6) ^^^ m[6]) + (XL Q ^^^ Q 30 ^^^ Q 6) := by
  unfold f2
  simp only [Vector.getElem_ofFn]
  rw [dif_pos (by decide)]
  rfl

theorem f2_7 (m : Words) (Q : Nat → W) : (f2 m Q)[7] = ((XH Q >>> 11) ^^^ (Q 23 <<< 2) ^^^ m[7]) + (XL Q ^^^ Q 31 ^^^ Q 7) := by
  unfold f2
  simp only [Vector.getElem_ofFn]
  rw [dif_pos (by decide)]
  rfl

theorem f2_8 (m : Words) (Q : Nat → W) : (f2 m Q)[8] = ((f2 m Q)[4].rotateLeft 9) + (XH Q ^^^ Q 24 ^^^ m[8]) + ((XL Q <<< 8) ^^^ Q 23 ^^^ Q 8) := by
  rw [f2_4, ← shl0 (Q 20)]
  unfold f2
  simp only [Vector.getElem_ofFn]
  rw [dif_neg (by decide)]
  simp only [Fin.getElem_fin, Vector.getElem_ofFn]
  rfl

theorem f2_9 (m : Words) (Q : Nat → W) : (f2 m Q)[9] = ((f2 m Q)[5].rotateLeft 10) + (XH Q ^^^ Q 25 ^^^ m[9]) + ((XL Q >>> 6) ^^^ Q 16 ^^^ Q 9) := by
  rw [f2_5]
  unfold f2
  simp only [Vector.getElem_ofFn]
  rw [dif_neg (by decide)]
  simp only [Fin.getElem_fin, Vector.getElem_ofFn]
  rfl

theorem f2_10 (m : Words) (Q : Nat → W) : (f2 m Q)[10] = ((f2 m Q)[6].rotateLeft 11) + (XH Q ^^^ Q 26 ^^^ m[10]) + ((XL Q <<< 6) ^^^ Q 17 ^^^ Q 10) := by
  rw [f2_6]
  unfold f2
  simp only [Vector.getElem_ofFn]
  rw [dif_neg (by decide)]
  simp only [Fin.getElem_fin, Vector.getElem_ofFn]
  rfl

theorem f2_11 (m : Words) (Q : Nat → W) : (f2 m Q)[11] = ((f2 m Q)[7].rotateLeft 12) + (XH Q ^^^ Q 27 ^^^ m[11]) + ((XL Q <<< 4) ^^^ Q 18 ^^^ Q 11) := by
  rw [f2_7]
  unfold f2
  simp only [Vector.getElem_ofFn]
  rw [dif_neg (by decide)]
  simp only [Fin.getElem_fin, Vector.getElem_ofFn]
  rfl

theorem f2_12 (m : Words) (Q : Nat → W) : (f2 m Q)[12] = ((f2 m Q)[0].rotateLeft 13) + (XH Q ^^^ Q 28 ^^^ m[12]) + ((XL Q >>> 3) ^^^ Q 19 ^^^ Q 12) := by
  rw [f2_0]
  unfold f2
  simp only [Vector.getElem_ofFn]
  rw [dif_neg (by decide)]
  simp only [Fin.getElem_fin, Vector.getElem_ofFn]
  rfl

theorem f2_13 (m : Words) (Q : Nat → W) : (f2 m Q)[13] = ((f2 m Q)[1].rotateLeft 14) + (XH Q ^^^ Q 29 ^^^ m[13]) + ((XL Q >>> 4) ^^^ Q 20 ^^^ Q 13) := by
  rw [f2_1]
  unfold f2
  simp only [Vector.getElem_ofFn]
  rw [dif_neg (by decide)]
  simp only [Fin.getElem_fin, Vector.getElem_ofFn]
  rfl

theorem f2_14 (m : Words) (Q : Nat → W) : (f2 m Q)[14] = ((f2 m Q)[2].rotateLeft 15) + (XH Q ^^^ Q 30 ^^^ m[14]) + ((XL Q >>> 7) ^^^ Q 21 ^^^ Q 14) := by
  rw [f2_2]
  unfold f2
  simp only [Vector.getElem_ofFn]
  rw [dif_neg (by decide)]
  simp only [Fin.getElem_fin, Vector.getElem_ofFn]
  rfl

theorem f2_15 (m : Words) (Q : Nat → W) : (f2 m Q)[15] = ((f2 m Q)[3].rotateLeft 16) + (XH Q ^^^ Q 31 ^^^ m[15]) + ((XL Q >>> 2) ^^^ Q 22 ^^^ Q 15) := by
  rw [f2_3]
  unfold f2
  simp only [Vector.getElem_ofFn]
  rw [dif_neg (by decide)]
  simp only [Fin.getElem_fin, Vector.getElem_ofFn]
  rfl

theorem set_inv16 {e h : Words} {k : Nat} (hk : k < 16) (hq : ∀ i (hi : i < 16), i < k → h[i] = e[i]) {v : W}
    (hv : v = e[k]) : ∀ i (hi : i < 16), i < k + 1 → (h.set k v)[i] = e[i] := by
  intro i h hi
  rw [Vector.getElem_set]
  split
  · subst_vars; rfl
  · exact hq i h (by omega)

theorem fold_eq (m h : Words) (q : Vector W 32) (Q : Nat → W) (hQ : ∀ i (h : i < 32), q[i] = Q i) : Model.Bmw.fold m q h = f2 m Q := by
  have hl : Model.Bmw.xl_of q = XL Q := by
    unfold Model.Bmw.xl_of XL
    rw [hQ 16 (by decide), hQ 17 (by decide), hQ 18 (by decide), hQ 19 (by decide), hQ 20 (by decide), hQ 21 (by decide), hQ 22 (by decide), hQ 23 (by decide)]
  have hh : Model.Bmw.xh_of (Model.Bmw.xl_of q) q = XH Q := by
    unfold Model.Bmw.xh_of XH
    rw [hl, hQ 24 (by decide), hQ 25 (by decide), hQ 26 (by decide), hQ 27 (by decide), hQ 28 (by decide), hQ 29 (by decide), hQ 30 (by decide), hQ 31 (by decide)]
  unfold Model.Bmw.fold
  dsimp only
  rw [hh, hl]
  have p0 : ∀ i (hi : i < 16), i < 0 → h[i] = (f2 m Q)[i] := fun i _ h => absurd h (by omega)
  have p1 : ∀ i (hi : i < 16), i < 1 → (Model.Bmw.h0 m q (XL Q) (XH Q) h)[i] = (f2 m Q)[i] :=
    set_inv16 (k := 0) (by decide) p0 (by rw [f2_0, hQ 16 (by decide), hQ 24 (by decide), hQ 0 (by decide)])
  generalize Model.Bmw.h0 m q (XL Q) (XH Q) h = v0 at p1 ⊢
  have p2 : ∀ i (hi : i < 16), i < 2 → (Model.Bmw.h1 m q (XL Q) (XH Q) v0)[i] = (f2 m Q)[i] :=
    set_inv16 (k := 1) (by decide) p1 (by rw [f2_1, hQ 17 (by decide), hQ 25 (by decide), hQ 1 (by decide)])
  generalize Model.Bmw.h1 m q (XL Q) (XH Q) v0 = v1 at p2 ⊢
  have p3 : ∀ i (hi : i < 16), i < 3 → (Model.Bmw.h2 m q (XL Q) (XH Q) v1)[i] = (f2 m Q)[i] :=
    set_inv16 (k := 2) (by decide) p2 (by rw [f2_2, hQ 18 (by decide), hQ 26 (by decide), hQ 2 (by decide)])
  generalize Model.Bmw.h2 m q (XL Q) (XH Q) v1 = v2 at p3 ⊢
  have p4 : ∀ i (hi : i < 16), i < 4 → (Model.Bmw.h3 m q (XL Q) (XH Q) v2)[i] = (f2 m Q)[i] :=
    set_inv16 (k := 3) (by decide) p3 (by rw [f2_3, hQ 19 (by decide), hQ 27 (by decide), hQ 3 (by decide)])
  generalize Model.Bmw.h3 m q (XL Q) (XH Q) v2 = v3 at p4 ⊢
  have p5 : ∀ i (hi : i < 16), i < 5 → (Model.Bmw.h4 m q (XL Q) (XH Q) v3)[i] = (f2 m Q)[i] :=
    set_inv16 (k := 4) (by decide) p4 (by rw [f2_4, hQ 20 (by decide), hQ 28 (by decide), hQ 4 (by decide)])
  generalize Model.Bmw.h4 m q (XL Q) (XH Q) v3 = v4 at p5 ⊢
  have p6 : ∀ i (hi : i < 16), i < 6 → (Model.Bmw.h5 m q (XL Q) (XH Q) v4)[i] = (f2 m Q)[i] :=
    set_inv16 (k := 5) (by decide) p5 (by rw [f2_5, hQ 21 (by decide), hQ 29 (by decide), hQ 5 (by decide)])
  generalize Model.Bmw.h5 m q (XL Q) (XH Q) v4 = v5 at p6 ⊢
  have p7 : ∀ i (hi : i < 16), i < 7 → (Model.Bmw.h6 m q (XL Q) (XH Q) v5)[i] = (f2 m Q)[i] :=
    set_inv16 (k := 6) (by decide) p6 (by rw [f2_6, hQ 22 (by decide), hQ 30 (by decide), hQ 6 (by decide)])
  generalize Model.Bmw.h6 m q (XL Q) (XH Q) v5 = v6 at p7 ⊢
  have p8 : ∀ i (hi : i < 16), i < 8 → (Model.Bmw.h7 m q (XL Q) (XH Q) v6)[i] = (f2 m Q)[i] :=
    set_inv16 (k := 7) (by decide) p7 (by rw [f2_7, hQ 23 (by decide), hQ 31 (by decide), hQ 7 (by decide)])
  generalize Model.Bmw.h7 m q (XL Q) (XH Q) v6 = v7 at p8 ⊢
  have p9 : ∀ i (hi : i < 16), i < 9 → (Model.Bmw.h8 m q (XL Q) (XH Q) v7)[i] = (f2 m Q)[i] :=
    set_inv16 (k := 8) (by decide) p8 (by rw [f2_8, p8 4 (by decide) (by decide), rotl _ _ (by decide), hQ 24 (by decide), hQ 23 (by decide), hQ 8 (by decide)])
  generalize Model.Bmw.h8 m q (XL Q) (XH Q) v7 = v8 at p9 ⊢
  have p10 : ∀ i (hi : i < 16), i < 10 → (Model.Bmw.h9 m q (XL Q) (XH Q) v8)[i] = (f2 m Q)[i] :=
    set_inv16 (k := 9) (by decide) p9 (by rw [f2_9, p9 5 (by decide) (by decide), rotl _ _ (by decide), hQ 25 (by decide), hQ 16 (by decide), hQ 9 (by decide)])
  generalize Model.Bmw.h9 m q (XL Q) (XH Q) v8 = v9 at p10 ⊢
  have p11 : ∀ i (hi : i < 16), i < 11 → (Model.Bmw.h10 m q (XL Q) (XH Q) v9)[i] = (f2 m Q)[i] :=
    set_inv16 (k := 10) (by decide) p10 (by rw [f2_10, p10 6 (by decide) (by decide), rotl _ _ (by decide), hQ 26 (by decide), hQ 17 (by decide), hQ 10 (by decide)])
  generalize Model.Bmw.h10 m q (XL Q) (XH Q) v9 = v10 at p11 ⊢
  have p12 : ∀ i (hi : i < 16), i < 12 → (Model.Bmw.h11 m q (XL Q) (XH Q) v10)[i] = (f2 m Q)[i] :=
    set_inv16 (k := 11) (by decide) p11 (by rw [f2_11, p11 7 (by decide) (by decide), rotl _ _ (by decide), hQ 27 (by decide), hQ 18 (by decide), hQ 11 (by decide)])
  generalize Model.Bmw.h11 m q (XL Q) (XH Q) v10 = v11 at p12 ⊢
  have p13 : ∀ i (hi : i < 16), i < 13 → (Model.Bmw.h12 m q (XL Q) (XH Q) v11)[i] = (f2 m Q)[i] :=
    set_inv16 (k := 12) (by decide) p12 (by rw [f2_12, p12 0 (by decide) (by decide), rotl _ _ (by decide), hQ 28 (by decide), hQ 19 (by decide), hQ 12 (by decide)])
  generalize Model.Bmw.h12 m q (XL Q) (XH Q) v11 = v12 at p13 ⊢
  have p14 : ∀ i (hi : i < 16), i < 14 → (Model.Bmw.h13 m q (XL Q) (XH Q) v12)[i] = (f2 m Q)[i] :=
    set_inv16 (k := 13) (by decide) p13 (by rw [f2_13, p13 1 (by decide) (by decide), rotl _ _ (by decide), hQ 29 (by decide), hQ 20 (by decide), hQ 13 (by decide)])
  generalize Model.Bmw.h13 m q (XL Q) (XH Q) v12 = v13 at p14 ⊢
  have p15 : ∀ i (hi : i < 16), i < 15 → (Model.Bmw.h14 m q (XL Q) (XH Q) v13)[i] = (f2 m Q)[i] :=
    set_inv16 (k := 14) (by decide) p14 (by rw [f2_14, p14 2 (by decide) (by decide), rotl _ _ (by decide), hQ 30 (by decide), hQ 21 (by decide), hQ 14 (by decide)])
  generalize Model.Bmw.h14 m q (XL Q) (XH Q) v13 = v14 at p15 ⊢
  have p16 : ∀ i (hi : i < 16), i < 16 → (Model.Bmw.h15 m q (XL Q) (XH Q) v14)[i] = (f2 m Q)[i] :=
    set_inv16 (k := 15) (by decide) p15 (by rw [f2_15, p15 3 (by decide) (by decide), rotl _ _ (by decide), hQ 31 (by decide), hQ 22 (by decide), hQ 15 (by decide)])
  generalize Model.Bmw.h15 m q (XL Q) (XH Q) v14 = v15 at p16 ⊢
  exact Vector.ext fun i hi => p16 i hi hi

theorem spec_compress (h m : Words) : Spec.Bmw.compress h m = f2 m (Q m h) := rfl

theorem compress_eq (b : Model.Bmw.Bmw) (m : Words) : (Model.Bmw.compress b m).h = Spec.Bmw.compress b.h m := by
  rw [spec_compress, ← fold_eq m b.h (Model.Bmw.pipe m b.h b.q) (Q m b.h) (pipe_eq m b.h b.q)]
  unfold Model.Bmw.compress
  rfl

end Proofs.Bmw
