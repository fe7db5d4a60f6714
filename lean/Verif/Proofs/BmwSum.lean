import Verif.Proofs.Bmw
import Mathlib.Data.List.Basic

/-! Padding and output of the BMW stage. -/

namespace Proofs.Bmw
open Rust Rust.Res Spec Spec.Bmw Model.Utils
open Model.Bmw (bset padBuf loadWords)

/-- The 64-byte block that the code compresses for an input of at most 63 bytes. -/
def block (input : List U8) : List U8 :=
  ((input ++ List.replicate (64 - input.length) 0).set input.length 0x80).take 56 ++ leBytes 8 (8 * input.length)

theorem block_length {input : List U8} (h : input.length ≤ 63) : (block input).length = 64 := by
  unfold block
  simp [Bytes.leBytes_length]
  omega

theorem bset_ok {buf : List U8} {i : Nat} (h : i < buf.length) (x : U8) : bset buf i x = pure (buf.set i x) := by
  unfold bset; rw [if_pos h]

theorem bset_panics {buf : List U8} {i : Nat} (h : buf.length ≤ i) (x : U8) : bset buf i x = throw .bounds := by
  unfold bset; rw [if_neg (by omega)]

/-- The copying loop. -/
theorem copy_eq (input : List U8) :
    forLoop 0 64 (fun i (buf : List U8) =>
      if i < input.length then do
        let x ← sget input i
        pure (buf ++ [x])
      else pure (buf ++ [0])) [] = pure ((input ++ List.replicate (64 - input.length) 0).take 64) := by
  apply Sat.returns
  refine (forLoop_sat (fun j (buf : List U8) => buf = (input ++ List.replicate (64 - input.length) 0).take j) 0 64 [] rfl ?_)
  rintro j _ hj rfl
  have hlen : j < (input ++ List.replicate (64 - input.length) (0 : U8)).length := by simp; omega
  rw [Nat.zero_add]
  split
  · rename_i hlt
    unfold sget
    rw [List.getElem?_eq_getElem hlt]
    refine .pure ?_
    rw [List.take_add_one, List.getElem?_eq_getElem hlen, List.getElem_append_left hlt]
    rfl
  · rename_i hge
    refine .pure ?_
    rw [List.take_add_one, List.getElem?_eq_getElem hlen, List.getElem_append_right (by omega), List.getElem_replicate]
    rfl

theorem tail8 (buf : List U8) (hb : buf.length = 64) (b0 b1 b2 b3 b4 b5 b6 b7 : U8) :
    ((((((((buf.set 56 b0).set 57 b1).set 58 b2).set 59 b3).set 60 b4).set 61 b5).set 62 b6).set 63 b7) =
      buf.take 56 ++ [b0, b1, b2, b3, b4, b5, b6, b7] := by
  apply List.ext_getElem (by simp [hb])
  intro i h1 h2
  simp only [List.length_set] at h1
  simp only [List.getElem_set]
  by_cases h : i < 56
  · rw [List.getElem_append_left (by simp; omega), List.getElem_take]
    repeat rw [if_neg (by omega)]
  · rw [List.getElem_append_right (by simp; omega)]
    obtain ⟨k, rfl⟩ : ∃ k, i = 56 + k := ⟨i - 56, by omega⟩
    have : 56 + k - (List.take 56 buf).length = k := by simp [hb]
    simp only [this]
    have hk : k < 8 := by omega
    interval_cases k <;> rfl

theorem leBytes8 (n : Nat) : ∃ b0 b1 b2 b3 b4 b5 b6 b7, leBytes 8 n = [b0, b1, b2, b3, b4, b5, b6, b7] :=
  ⟨_, _, _, _, _, _, _, _, rfl⟩

theorem padBuf_ok {input : List U8} (h : input.length ≤ 63) : padBuf input = pure (block input) := by
  have hlen : (input ++ List.replicate (64 - input.length) (0 : U8)).length = 64 := by simp; omega
  have hbits : (BitVec.ofNat 64 input.length <<< 3).toNat = 8 * input.length := by
    rw [BitVec.toNat_shiftLeft, BitVec.toNat_ofNat, Nat.shiftLeft_eq]; omega
  unfold padBuf block
  rw [copy_eq, pure_bind, List.take_of_length_le (by omega)]
  rw [bset_ok (by omega), pure_bind]
  rw [Bytes.toLeBytes64_eq, hbits]
  have hlen' : ((input ++ List.replicate (64 - input.length) (0 : U8)).set input.length 0x80).length = 64 := by
    rw [List.length_set, hlen]
  generalize (input ++ List.replicate (64 - input.length) (0 : U8)).set input.length 0x80 = buf at hlen'
  obtain ⟨b0, b1, b2, b3, b4, b5, b6, b7, e⟩ := leBytes8 (8 * input.length)
  rw [e]
  dsimp only
  simp only [sget, List.getElem?_cons_zero, List.getElem?_cons_succ, pure_bind]
  rw [bset_ok (by omega), pure_bind]
  iterate 6 rw [bset_ok (by simp only [List.length_set]; omega), pure_bind]
  rw [bset_ok (by simp only [List.length_set]; omega)]
  rw [tail8 buf hlen']

theorem padBuf_panics {input : List U8} (h : 64 ≤ input.length) : (padBuf input).Panics := by
  unfold padBuf
  rw [copy_eq, pure_bind, bset_panics (by simp; omega)]
  exact ⟨_, rfl⟩

theorem loadWords_ok {buf : List U8} (h : buf.length = 64) (m : Words) : loadWords buf m = pure (words buf) := by
  apply Sat.returns
  unfold loadWords
  refine (foldlM_finRange_sat (fun j (m : Words) => ∀ i (hi : i < 16), i < j → m[i] = (words buf)[i]) m
    (fun i _ h => absurd h (by omega)) ?_).mono fun m hm => Vector.ext fun i hi => hm i hi hi
  intro j m hm
  dsimp only
  rw [← bind_assoc, Bytes.read32_slice (by omega), pure_bind]
  refine .pure fun i hi hij => ?_
  rw [Vector.getElem_set]
  split
  · rename_i e
    subst e
    unfold words
    rw [Vector.getElem_ofFn]
  · exact hm i hi (by omega)

/-- The digest of a one-block message. -/
def digest (b : List U8) : List U8 :=
  ((compress final (compress init (words b))).toList.drop 8).flatMap fun w => leBytes 4 w.toNat

theorem new_h : Model.Bmw.new.h = init := by decide +kernel
theorem FINAL_eq : Model.Bmw.FINAL = final := by decide +kernel

theorem out_eq (h : Words) :
    ((((((((([] : List U8) ++ toLeBytes32 h[8]) ++ toLeBytes32 h[9]) ++ toLeBytes32 h[10]) ++ toLeBytes32 h[11]) ++ toLeBytes32 h[12]) ++
      toLeBytes32 h[13]) ++ toLeBytes32 h[14]) ++ toLeBytes32 h[15]) = (h.toList.drop 8).flatMap fun w => leBytes 4 w.toNat := by
  conv_rhs => rw [vec16 h]
  simp only [Bytes.toLeBytes32_eq]
  rfl

theorem sum_ok {input : List U8} (h : input.length ≤ 63) : Model.Bmw.sum input = pure (digest (block input)) := by
  unfold Model.Bmw.sum
  rw [padBuf_ok h, pure_bind, loadWords_ok (block_length h), pure_bind]
  refine congrArg pure ?_
  dsimp only
  rw [out_eq, compress_eq, compress_eq]
  dsimp only
  rw [FINAL_eq, new_h]
  rfl

theorem sum_panics {input : List U8} (h : 64 ≤ input.length) : (Model.Bmw.sum input).Panics := by
  unfold Model.Bmw.sum
  exact Panics.bind (padBuf_panics h)

theorem digest_length (b : List U8) : (digest b).length = 32 := by
  unfold digest
  rw [List.length_flatMap]
  have : (List.map (fun a : W => (leBytes 4 a.toNat).length) ((compress final (compress init (words b))).toList.drop 8)) = List.replicate 8 4 := by
    rw [List.eq_replicate_iff]
    simp [Bytes.leBytes_length]
  rw [this]
  rfl

/-! ## The block -/

theorem block_short {input : List U8} (h : input.length ≤ 55) : block input = pad input := by
  unfold block pad
  rw [show (119 - input.length % 64) % 64 = 55 - input.length by omega]
  congr 1
  rw [show 64 - input.length = (55 - input.length) + 9 by omega, List.replicate_add, ← List.append_assoc]
  rw [show (55 - input.length) = (55 - input.length) by rfl, List.append_assoc, List.set_append_right _ _ (Nat.le_refl _), Nat.sub_self]
  rw [← List.replicate_add, show 55 - input.length + 9 = (55 - input.length) + 8 + 1 by omega, List.replicate_succ, List.set_cons_zero,
    List.replicate_add, ← List.singleton_append, ← List.append_assoc, ← List.append_assoc, List.take_append_of_le_length (by simp; omega),
    List.take_of_length_le (by simp; omega)]

theorem block_long {input : List U8} (h : 56 ≤ input.length) : block input = input.take 56 ++ leBytes 8 (8 * input.length) := by
  unfold block
  rw [List.take_set_of_le (by omega), List.take_append_of_le_length h]

theorem chunks_one {b : List Byte} (h : b.length = 64) : chunks 64 b = [b] := by
  unfold chunks
  rw [h]
  show [(b.drop 0).take 64] = [b]
  rw [List.drop_zero, List.take_of_length_le (by omega)]

theorem sum_hash {input : List U8} (h : input.length ≤ 55) : Model.Bmw.sum input = pure (Spec.Bmw.hash input) := by
  rw [sum_ok (by omega), block_short h]
  unfold Spec.Bmw.hash
  rw [chunks_one (by rw [← block_short h]; exact block_length (by omega))]
  rfl

/-- The words of a block determine the block. -/
theorem words_inj {b b' : List Byte} (hb : b.length = 64) (hb' : b'.length = 64) (h : words b = words b') : b = b' := by
  have key : ∀ n, n < 16 → (b.drop (4 * n)).take 4 = (b'.drop (4 * n)).take 4 := by
    intro n hn
    have h1 := congrArg (fun v : Words => v[n]) h
    simp only [words, Vector.getElem_ofFn] at h1
    have l1 : ((b.drop (4 * n)).take 4).length = 4 := by simp; omega
    have l2 : ((b'.drop (4 * n)).take 4).length = 4 := by simp; omega
    refine Bytes.leNat_inj (by rw [l1, l2]) ?_
    have b1 := Bytes.leNat_lt ((b.drop (4 * n)).take 4)
    have b2 := Bytes.leNat_lt ((b'.drop (4 * n)).take 4)
    rw [l1] at b1
    rw [l2] at b2
    have := congrArg BitVec.toNat h1
    rw [BitVec.toNat_ofNat, BitVec.toNat_ofNat] at this
    omega
  apply List.ext_getElem (by omega)
  intro i hi hi'
  have := congrArg (fun l : List Byte => l[i % 4]?) (key (i / 4) (by omega))
  simp only [List.getElem?_take, List.getElem?_drop] at this
  rw [if_pos (by omega), if_pos (by omega), show 4 * (i / 4) + i % 4 = i by omega, List.getElem?_eq_getElem hi,
    List.getElem?_eq_getElem hi'] at this
  exact Option.some.inj this

theorem pad_length {a : List Byte} (ha : a.length ≤ 55) : (pad a).length = 64 := by
  rw [← block_short ha]; exact block_length (by omega)

theorem pad_inj {a b : List Byte} (ha : a.length ≤ 55) (hb : b.length ≤ 55) (h : pad a = pad b) : a = b := by
  have l1 := pad_length ha
  have l2 := pad_length hb
  unfold pad at h
  have ht := List.append_inj_right' h (by rw [Bytes.leBytes_length, Bytes.leBytes_length])
  have hn : a.length = b.length := by
    have := congrArg leNat ht
    rw [Bytes.leNat_leBytes, Bytes.leNat_leBytes] at this
    omega
  have h1 := List.append_inj_left' h (by rw [Bytes.leBytes_length, Bytes.leBytes_length])
  rw [List.append_assoc, List.append_assoc] at h1
  exact List.append_inj_left h1 hn

end Proofs.Bmw
