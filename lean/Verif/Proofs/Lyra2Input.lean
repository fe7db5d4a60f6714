import Verif.Proofs.Lyra2Wander
import Verif.Proofs.Lyra2Mem

/-! The padded input: what is written to the matrix and absorbed. -/

namespace Proofs.Lyra2
open Rust Rust.Res Model.Utils Model.Lyra2 Spec Spec.Lyra2 Proofs.Sponge

/-- The matrix of `L` words holds `ws`, then zeros. -/
def Holds (L : Nat) (m : Matrix) (ws : List U64) : Prop := m.size = L ∧ ∀ i, i < L → m[i]? = some (wordAt ws i)

theorem Holds.zero (L : Nat) : Holds L (Array.replicate L 0) [] := by
  refine ⟨by simp, fun i hi => ?_⟩
  simp [hi, wordAt]

theorem wordAt_append (ws : List U64) (x : U64) (i : Nat) :
    wordAt (ws ++ [x]) i = if i = ws.length then x else wordAt ws i := by
  unfold wordAt
  rw [List.getD_eq_getElem?_getD, List.getD_eq_getElem?_getD]
  by_cases h : i < ws.length
  · rw [List.getElem?_append_left h, if_neg (by omega)]
  · rw [List.getElem?_append_right (by omega)]
    by_cases e : i = ws.length
    · subst e; simp
    · rw [if_neg e, List.getElem?_eq_none (by simp; omega), List.getElem?_eq_none (by omega)]

theorem Holds.vset {L : Nat} {m : Matrix} {ws : List U64} (h : Holds L m ws) (hl : ws.length < L) (x : U64) :
    (vset m ws.length x).Sat (fun m' => Holds L m' (ws ++ [x])) := by
  rw [vset_lt (by rw [h.1]; exact hl)]
  refine .pure ⟨by simp [h.1], fun i hi => ?_⟩
  rw [Array.getElem?_set, wordAt_append]
  by_cases e : ws.length = i
  · subst e; rw [if_pos rfl, if_pos rfl]
  · rw [if_neg e, if_neg (by omega)]; exact h.2 i hi

theorem words64_take {bytes : List U8} {j : Nat} (hj : j < bytes.length / 8) :
    (words64 bytes).take (j + 1) = (words64 bytes).take j ++ [BitVec.ofNat 64 (leNat ((bytes.drop (8 * j)).take 8))] := by
  rw [List.take_succ_eq_append_getElem (by rw [Bytes.words64_length]; exact hj), Bytes.words64_getElem]

theorem writeWords_ok {L : Nat} {m : Matrix} {ws : List U64} (bytes : List U8) (h : Holds L m ws)
    (hl : ws.length + bytes.length / 8 ≤ L) :
    (writeWords bytes ws.length m).Sat (fun m' => Holds L m' (ws ++ words64 bytes)) := by
  unfold writeWords
  have := forLoop_sat (fun j m' => Holds L m' (ws ++ (words64 bytes).take j)) 0 (bytes.length / 8) m
    (by rw [List.take_zero, List.append_nil]; exact h) (body := fun j m => do
      let x ← read_u64_le (← slice bytes (8 * j) (8 * j + 8))
      vset m (ws.length + j) x) ?_
  · rw [List.take_of_length_le (by rw [Bytes.words64_length])] at this
    exact this
  · intro j m' hj hm'
    rw [Nat.zero_add]
    have := Bytes.read64_slice (s := bytes) (lo := 8 * j) (by omega)
    rw [← bind_assoc, this, pure_bind, words64_take hj, ← List.append_assoc]
    have hlen : (ws ++ (words64 bytes).take j).length = ws.length + j := by
      rw [List.length_append, List.length_take, Bytes.words64_length]; omega
    have := hm'.vset (by rw [hlen]; omega) (BitVec.ofNat 64 (leNat ((bytes.drop (8 * j)).take 8)))
    rw [hlen] at this
    exact this

/-- The input words before the `0x80`. -/
def msgWords (k : Nat) (pwd salt : List U8) (T R C : Nat) : List U64 :=
  words64 pwd ++ words64 salt ++ (basil k pwd.length salt.length T R C).map (BitVec.ofNat 64)

theorem msgWords_length (k : Nat) (pwd salt : List U8) (T R C : Nat) :
    (msgWords k pwd salt T R C).length = pwd.length / 8 + salt.length / 8 + 6 := by
  simp [msgWords, Bytes.words64_length, basil]; omega

theorem msgWords_lt (k : Nat) (pwd salt : List U8) (T R C : Nat) :
    (msgWords k pwd salt T R C).length < 8 * nBlocks (pwd.length + salt.length) := by
  rw [msgWords_length]; unfold nBlocks; omega

/-- A padded word sequence, word by word. -/
theorem pad_wordAt (msg : List U64) (n : Nat) (hn : msg.length < n) (x c : U64) :
    let tail := [x] ++ List.replicate (n - msg.length - 1) 0
    (msg ++ tail.dropLast ++ [tail.getLastD 0 ^^^ c]).length = n ∧
    ∀ i, wordAt (msg ++ tail.dropLast ++ [tail.getLastD 0 ^^^ c]) i =
      if i = n - 1 then wordAt (msg ++ [x]) i ^^^ c else wordAt (msg ++ [x]) i := by
  intro tail
  have key : ∃ l : List U64, tail = l ++ [wordAt (msg ++ [x]) (n - 1)] ∧ l.length = n - 1 - msg.length ∧
      ∀ i, i ≠ n - 1 → wordAt (msg ++ l) i = wordAt (msg ++ [x]) i := by
    by_cases e : n - msg.length - 1 = 0
    · refine ⟨[], ?_, by simp; omega, fun i hi => ?_⟩
      · rw [wordAt_append, if_pos (by omega)]
        simp [tail, e]
      · rw [List.append_nil, wordAt_append, if_neg (by omega)]
    · obtain ⟨j, hj⟩ : ∃ j, n - msg.length - 1 = j + 1 := ⟨n - msg.length - 2, by omega⟩
      refine ⟨x :: List.replicate j 0, ?_, by simp; omega, fun i hi => ?_⟩
      · rw [wordAt_append, if_neg (by omega)]
        have : wordAt msg (n - 1) = 0 := by
          unfold wordAt; rw [List.getD_eq_getElem?_getD, List.getElem?_eq_none (by omega)]; rfl
        rw [this]
        simp only [tail, hj]
        rw [List.replicate_succ', List.cons_append, ← List.append_assoc]
        rfl
      · unfold wordAt
        rw [List.getD_eq_getElem?_getD, List.getD_eq_getElem?_getD, show msg ++ x :: List.replicate j 0 =
          (msg ++ [x]) ++ List.replicate j 0 by simp]
        by_cases hlt : i < (msg ++ [x]).length
        · rw [List.getElem?_append_left hlt]
        · rw [List.getElem?_append_right (by omega), List.getElem?_eq_none (l := msg ++ [x]) (by omega)]
          by_cases hlt' : i - (msg ++ [x]).length < j
          · rw [List.getElem?_replicate, if_pos hlt']; rfl
          · rw [List.getElem?_replicate, if_neg hlt']
  obtain ⟨l, h1, h2, h3⟩ := key
  rw [h1, List.dropLast_append_cons, List.dropLast_singleton, List.append_nil,
    show (l ++ [wordAt (msg ++ [x]) (n - 1)]).getLastD 0 = wordAt (msg ++ [x]) (n - 1) by simp]
  refine ⟨by simp; omega, fun i => ?_⟩
  rw [wordAt_append, show (msg ++ l).length = n - 1 by rw [List.length_append]; omega]
  by_cases hi : i = n - 1
  · rw [if_pos hi, if_pos hi, hi]
  · rw [if_neg hi, if_neg hi, h3 i hi]

theorem crateWords_length (k : Nat) (pwd salt : List U8) (T R C : Nat) :
    (crateWords k pwd salt T R C).length = 8 * nBlocks (pwd.length + salt.length) :=
  (pad_wordAt (msgWords k pwd salt T R C) _ (msgWords_lt ..) _ _).1

theorem crateWords_wordAt (k : Nat) (pwd salt : List U8) (T R C : Nat) (i : Nat) :
    wordAt (crateWords k pwd salt T R C) i =
      if i = 8 * nBlocks (pwd.length + salt.length) - 1 then wordAt (msgWords k pwd salt T R C ++ [0x80]) i ^^^ 0x0100000000000000
      else wordAt (msgWords k pwd salt T R C ++ [0x80]) i :=
  (pad_wordAt (msgWords k pwd salt T R C) _ (msgWords_lt ..) _ _).2 i

theorem usizeAdd_ok (p : Profile) {a b : Nat} (h : a + b < 2 ^ 64) : usizeAdd p a b = pure (a + b) := by
  unfold usizeAdd; rw [if_pos h]

theorem nBlocksInput_ok (p : Profile) {a b : Nat} (h : a + b + 48 < 2 ^ 63) :
    nBlocksInput p a b = pure (BitVec.ofNat 64 (nBlocks (a + b))) := by
  unfold nBlocksInput
  rw [usizeAdd_ok p (by omega), pure_bind, usizeAdd_ok p (by omega), pure_bind,
    show BLOCKLENBLAKE2SAFEBYTES = BitVec.ofNat 64 64 from rfl, idiv_ofNat (by omega) (by omega),
    show (1 : BitVec 64) = BitVec.ofNat 64 1 from rfl, iadd_ofNat p (by omega), Nat.add_comm b a]
  rfl

theorem writeInput_ok (p : Profile) (k T R C : U64) (pwd salt : List U8) {L : Nat} (hL : L < 2 ^ 60)
    (h : 8 * nBlocks (pwd.length + salt.length) ≤ L) :
    (writeInput p k pwd salt T R C (BitVec.ofNat 64 (nBlocks (pwd.length + salt.length))) (Array.replicate L 0)).Sat
      (fun m => Holds L m (crateWords k.toNat pwd salt T.toNat R.toNat C.toNat)) := by
  have hlt := msgWords_lt k.toNat pwd salt T.toNat R.toNat C.toNat
  rw [msgWords_length] at hlt
  unfold writeInput
  refine Sat.bind (writeWords_ok pwd (Holds.zero L) (by simp; omega)) fun m hm => ?_
  rw [List.nil_append] at hm
  have e : ([] : List U64).length + pwd.length / 8 = (words64 pwd).length := by rw [Bytes.words64_length]; simp
  have e0 : (0 : Nat) + pwd.length / 8 = (words64 pwd).length := by rw [Bytes.words64_length]; simp
  simp only [e0]
  refine Sat.bind (writeWords_ok salt hm (by rw [Bytes.words64_length]; omega)) fun m hm => ?_
  have e1 : (words64 pwd).length + salt.length / 8 = (words64 pwd ++ words64 salt).length := by
    rw [List.length_append, Bytes.words64_length, Bytes.words64_length]
  simp only [e1]
  have hl : (words64 pwd ++ words64 salt).length = pwd.length / 8 + salt.length / 8 := by
    rw [List.length_append, Bytes.words64_length, Bytes.words64_length]
  have step : ∀ (ws : List U64) (x : U64), ws.length + 1 = (ws ++ [x]).length := by intro ws x; simp
  refine Sat.bind (hm.vset (by omega) k) fun m hm => ?_
  rw [step _ k]
  refine Sat.bind (hm.vset (by simp only [List.length_append, List.length_singleton] at hl ⊢; omega) _) fun m hm => ?_
  rw [step _ (BitVec.ofNat 64 pwd.length)]
  refine Sat.bind (hm.vset (by simp only [List.length_append, List.length_singleton] at hl ⊢; omega) _) fun m hm => ?_
  rw [step _ (BitVec.ofNat 64 salt.length)]
  refine Sat.bind (hm.vset (by simp only [List.length_append, List.length_singleton] at hl ⊢; omega) _) fun m hm => ?_
  rw [step _ T]
  refine Sat.bind (hm.vset (by simp only [List.length_append, List.length_singleton] at hl ⊢; omega) _) fun m hm => ?_
  rw [step _ R]
  refine Sat.bind (hm.vset (by simp only [List.length_append, List.length_singleton] at hl ⊢; omega) _) fun m hm => ?_
  rw [step _ C]
  refine Sat.bind (hm.vset (by simp only [List.length_append, List.length_singleton] at hl ⊢; omega) _) fun m hm => ?_
  have hmsg : words64 pwd ++ words64 salt ++ [k] ++ [BitVec.ofNat 64 pwd.length] ++ [BitVec.ofNat 64 salt.length] ++ [T] ++
      [R] ++ [C] = msgWords k.toNat pwd salt T.toNat R.toNat C.toNat := by
    simp [msgWords, basil]
  rw [hmsg] at hm
  have hnb : 0 < nBlocks (pwd.length + salt.length) := by unfold nBlocks; omega
  rw [show BLOCKLENBLAKE2SAFEBYTES = BitVec.ofNat 64 64 from rfl, imul_ofNat p (by omega) (by omega) (by omega), pure_bind,
    show (8 : BitVec 64) = BitVec.ofNat 64 8 from rfl, idiv_ofNat (by omega) (by omega),
    show (1 : BitVec 64) = BitVec.ofNat 64 1 from rfl, isub_ofNat p (by omega) (by omega), pure_bind,
    toNat_ofNat64 (by omega)]
  have hi : nBlocks (pwd.length + salt.length) * 64 / 8 - 1 = 8 * nBlocks (pwd.length + salt.length) - 1 := by omega
  rw [hi]
  have hlast := hm.2 (8 * nBlocks (pwd.length + salt.length) - 1) (by omega)
  have : vget m (8 * nBlocks (pwd.length + salt.length) - 1) = pure (wordAt (msgWords k.toNat pwd salt T.toNat R.toNat C.toNat ++ [0x80]) (8 * nBlocks (pwd.length + salt.length) - 1)) := by
    unfold vget; rw [hlast]
  rw [this, pure_bind, vset_lt (by rw [hm.1]; omega)]
  refine .pure ⟨by simp [hm.1], fun i hi => ?_⟩
  rw [Array.getElem?_set, crateWords_wordAt]
  by_cases e : i = 8 * nBlocks (pwd.length + salt.length) - 1
  · subst e; rw [if_pos rfl, if_pos rfl]
  · rw [if_neg (by omega), if_neg e]; exact hm.2 i hi

/-! ## Absorbing -/

theorem absorbSafe_ok (s : State) (w : Array U64) (x : Vector U64 8) (h : ∀ i : Fin 8, w[i.val]? = some x[i]) :
    absorb_block_blake2_safe s w = pure (f (xorSafe s x)) := by
  unfold absorb_block_blake2_safe
  have := foldlM_finRange_sat (n := 8) (stmt := fun (i : Fin 8) (s : State) => do
      let x ← vget w i
      pure (s.set i (s[i] ^^^ x)))
    (fun j s' => ∀ (i : Nat) (hi : i < 16), s'[i] = if h : i < 8 ∧ i < j then s[i] ^^^ x[i] else s[i]) s
    (fun i hi => by simp) ?_
  · obtain ⟨s', h1, h2⟩ := this
    rw [h1, pure_bind, blake2b_eq]
    congr 2
    apply Vector.ext
    intro i hi
    rw [h2 i hi]
    unfold xorSafe
    rw [Vector.getElem_ofFn]
    by_cases h8 : i < 8
    · rw [dif_pos ⟨h8, h8⟩, dif_pos h8]; rfl
    · rw [dif_neg (by omega), dif_neg h8]; rfl
  · intro j s' hs'
    have : vget w j = pure x[j] := by unfold vget; rw [h j]
    rw [this, pure_bind]
    refine .pure fun i hi => ?_
    rw [Vector.getElem_set]
    by_cases e : j.val = i
    · subst e
      have := hs' j.val (by omega)
      rw [dif_neg (by omega)] at this
      rw [if_pos rfl, dif_pos (by omega)]
      show s'[j.val] ^^^ _ = _
      rw [this]; rfl
    · rw [if_neg e, hs' i hi]
      by_cases hh : i < 8 ∧ i < j.val
      · rw [dif_pos hh, dif_pos (by omega)]
      · rw [dif_neg hh, dif_neg (by omega)]

theorem absorbInput_ok {L : Nat} {m : Matrix} {ws : List U64} (hm : Holds L m ws) {n : Nat} (hn : 8 * n ≤ L) (hn' : n < 2 ^ 63)
    (s : State) : Model.Lyra2.absorbInput (BitVec.ofNat 64 n) m s = pure (Spec.Lyra2.absorbInput ws n s) := by
  unfold Model.Lyra2.absorbInput Spec.Lyra2.absorbInput
  rw [show (0 : BitVec 64) = BitVec.ofNat 64 0 from rfl, irangeLen_ofNat (by omega) hn', Nat.sub_zero]
  have := forLoop_sat (fun j (x : State × Nat) => x = ((List.range j).foldl (fun s j => f (xorSafe s (Vector.ofFn fun i => wordAt ws (8 * j + i)))) s, 8 * j))
    0 n (s, 0) rfl (body := fun _ x => do
    let right ← splitRight m x.2
    let state ← absorb_block_blake2_safe x.1 right
    pure (state, x.2 + 8)) ?_
  · have := this.returns
    rw [this, pure_bind]
  · rintro j x hj rfl
    dsimp only
    unfold splitRight
    rw [if_pos (by rw [hm.1]; omega), pure_bind, absorbSafe_ok _ _ (Vector.ofFn fun i => wordAt ws (8 * j + i)), pure_bind,
      List.range_succ, List.foldl_append]
    · exact .pure rfl
    · intro i
      rw [Array.getElem?_extract, if_pos (by rw [hm.1]; omega), hm.2 _ (by omega)]
      simp

end Proofs.Lyra2
