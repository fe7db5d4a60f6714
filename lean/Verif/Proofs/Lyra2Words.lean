import Verif.Proofs.Lyra2Orders

/-! The word sequence that is absorbed. -/

namespace Proofs.Lyra2
open Rust Rust.Res Model.Utils Model.Lyra2 Spec Spec.Lyra2

/-! ## Words of a concatenation -/

theorem words64_cons (c b : List Byte) (h : c.length = 8) : words64 (c ++ b) = BitVec.ofNat 64 (leNat c) :: words64 b := by
  unfold words64 chunks
  rw [show (c ++ b).length / 8 = b.length / 8 + 1 by rw [List.length_append]; omega, List.range_succ_eq_map, List.map_cons,
    List.map_cons, Nat.mul_zero, List.drop_zero, List.take_append_of_le_length (by omega), List.take_of_length_le (by omega),
    List.map_map, List.map_map, List.map_map]
  congr 1
  apply List.map_congr_left
  intro i _
  simp only [Function.comp]
  rw [show 8 * i.succ = c.length + 8 * i by omega, List.drop_append, List.drop_eq_nil_of_le (by omega), List.nil_append,
    Nat.add_sub_cancel_left]

theorem words64_append (a b : List Byte) (h : a.length % 8 = 0) : words64 (a ++ b) = words64 a ++ words64 b := by
  obtain ⟨n, hn⟩ : ∃ n, a.length = 8 * n := ⟨a.length / 8, by omega⟩
  clear h
  induction n generalizing a with
  | zero =>
    have : a = [] := List.length_eq_zero_iff.mp (by omega)
    subst this; rfl
  | succ n ih =>
    have e : a = a.take 8 ++ a.drop 8 := (List.take_append_drop 8 a).symm
    have h8 : (a.take 8).length = 8 := by rw [List.length_take]; omega
    rw [e, List.append_assoc, words64_cons _ _ h8, words64_cons _ _ h8, ih _ (by rw [List.length_drop]; omega)]
    rfl

theorem words64_inj {a b : List Byte} (ha : 8 ∣ a.length) (hb : 8 ∣ b.length) (h : words64 a = words64 b) : a = b := by
  have hl := congrArg List.length h
  rw [Bytes.words64_length, Bytes.words64_length] at hl
  obtain ⟨n, hn⟩ := ha
  obtain ⟨n', hn'⟩ := hb
  have : n' = n := by omega
  subst this
  clear hl
  induction n' generalizing a b with
  | zero => rw [List.length_eq_zero_iff.mp (show a.length = 0 by omega), List.length_eq_zero_iff.mp (show b.length = 0 by omega)]
  | succ n ih =>
    have ea : a = a.take 8 ++ a.drop 8 := (List.take_append_drop 8 a).symm
    have eb : b = b.take 8 ++ b.drop 8 := (List.take_append_drop 8 b).symm
    have la : (a.take 8).length = 8 := by rw [List.length_take]; omega
    have lb : (b.take 8).length = 8 := by rw [List.length_take]; omega
    rw [ea, eb, words64_cons _ _ la, words64_cons _ _ lb] at h
    injection h with h1 h2
    have la' := Bytes.leNat_lt (a.take 8)
    have lb' := Bytes.leNat_lt (b.take 8)
    rw [la] at la'
    rw [lb] at lb'
    rw [ofNat_inj64 (by omega) (by omega)] at h1
    rw [ea, eb, Bytes.leNat_inj (la.trans lb.symm) h1, ih h2 (by rw [List.length_drop]; omega) (by rw [List.length_drop]; omega)]

theorem words64_leBytes (n : Nat) : words64 (leBytes 8 n) = [BitVec.ofNat 64 n] := by
  have := words64_cons (leBytes 8 n) [] (Bytes.leBytes_length 8 n)
  rw [List.append_nil] at this
  rw [this, Bytes.leNat_leBytes]
  have : words64 [] = [] := rfl
  rw [this]
  congr 1
  apply BitVec.eq_of_toNat_eq
  simp

theorem flatMap_leBytes_length (l : List Nat) : (l.flatMap (leBytes 8)).length = 8 * l.length := by
  induction l with
  | nil => rfl
  | cons a l ih => rw [List.flatMap_cons, List.length_append, Bytes.leBytes_length, ih, List.length_cons]; ring

theorem words64_flatMap (l : List Nat) : words64 (l.flatMap (leBytes 8)) = l.map (BitVec.ofNat 64) := by
  induction l with
  | nil => rfl
  | cons a l ih =>
    rw [List.flatMap_cons, words64_append _ _ (by rw [Bytes.leBytes_length]), ih, words64_leBytes]; rfl

theorem words64_zeros (n : Nat) : words64 (List.replicate (8 * n) 0) = List.replicate n 0 := by
  induction n with
  | zero => rfl
  | succ n ih =>
    rw [show 8 * (n + 1) = 8 + 8 * n by ring, List.replicate_add, words64_cons _ _ (by simp), ih, List.replicate_succ]
    rfl

/-- The padding: `0x80`, zeros, `0x01`, on bytes and on words. -/
theorem words64_tail (q : Nat) :
    words64 (((0x80 : Byte) :: List.replicate (8 * (q + 1) - 1) 0).dropLast ++
      [((0x80 : Byte) :: List.replicate (8 * (q + 1) - 1) 0).getLastD 0 ^^^ 0x01]) =
    ((0x80 : U64) :: List.replicate q 0).dropLast ++ [((0x80 : U64) :: List.replicate q 0).getLastD 0 ^^^ 0x0100000000000000] := by
  match q with
  | 0 => decide +kernel
  | q + 1 =>
    have e : 8 * (q + 1 + 1) - 1 = 7 + (8 * q + 7) + 1 := by omega
    have e1 : List.replicate (7 + (8 * q + 7) + 1) (0 : Byte) =
        List.replicate 7 0 ++ (List.replicate (8 * q) 0 ++ List.replicate 7 0) ++ [0] := by
      rw [List.replicate_succ', List.replicate_add, List.replicate_add]
    have e2 : ((0x80 : Byte) :: List.replicate (7 + (8 * q + 7) + 1) 0) =
        ([0x80, 0, 0, 0, 0, 0, 0, 0] ++ (List.replicate (8 * q) 0 ++ List.replicate 7 0)) ++ [0] := by
      rw [e1]; rfl
    rw [e, e2, List.dropLast_concat, show ∀ l : List Byte, (l ++ [(0 : Byte)]).getLastD (0 : Byte) = 0 by intro l; simp]
    have e3 : ((0x80 : U64) :: List.replicate (q + 1) 0) = ([0x80] ++ List.replicate q 0) ++ [0] := by
      rw [List.replicate_succ']; rfl
    rw [e3, List.dropLast_concat, show ∀ l : List U64, (l ++ [(0 : U64)]).getLastD (0 : U64) = 0 by intro l; simp,
      List.append_assoc, words64_cons _ _ rfl, List.append_assoc, words64_append _ _ (by simp), words64_zeros]
    rfl

/-- On inputs of complete words the crate absorbs the reference padding. -/
theorem refWords_eq (k : Nat) (pwd salt : List Byte) (T R C : Nat) (hp : pwd.length % 8 = 0) (hs : salt.length % 8 = 0) :
    refWords k pwd salt T R C = crateWords k pwd salt T R C := by
  unfold refWords crateWords refPad
  have hb : (basil k pwd.length salt.length T R C).length = 6 := rfl
  have hl1 : (pwd ++ salt ++ (basil k pwd.length salt.length T R C).flatMap (leBytes 8)).length =
      pwd.length + salt.length + 48 := by
    rw [List.length_append, List.length_append, flatMap_leBytes_length, hb]
  have hl2 : (words64 pwd ++ words64 salt ++ (basil k pwd.length salt.length T R C).map (BitVec.ofNat 64)).length =
      pwd.length / 8 + salt.length / 8 + 6 := by
    rw [List.length_append, List.length_append, List.length_map, hb, Bytes.words64_length, Bytes.words64_length]
  simp only [hl1, hl2]
  obtain ⟨q, hq⟩ : ∃ q, 64 * nBlocks (pwd.length + salt.length) - (pwd.length + salt.length + 48) = 8 * (q + 1) := by
    refine ⟨(64 * nBlocks (pwd.length + salt.length) - (pwd.length + salt.length + 48)) / 8 - 1, ?_⟩
    unfold nBlocks; omega
  have hq' : 8 * nBlocks (pwd.length + salt.length) - (pwd.length / 8 + salt.length / 8 + 6) - 1 = q := by omega
  rw [hq, hq', List.append_assoc, words64_append _ _ (by rw [hl1]; omega), List.singleton_append, words64_tail,
    words64_append _ _ (by rw [List.length_append]; omega), words64_append _ _ hp, words64_flatMap, List.singleton_append,
    List.append_assoc (_ ++ _ ++ _)]

/-! ## Injectivity -/

theorem strip_zeros {x : U64} (hx : x ≠ 0) (a b : List U64) (i j : Nat)
    (h : a ++ x :: List.replicate i 0 = b ++ x :: List.replicate j 0) : a = b := by
  have key : ∀ (a b : List U64) (i j : Nat), a.length < b.length →
      a ++ x :: List.replicate i 0 = b ++ x :: List.replicate j 0 → False := by
    intro a b i j hlt h
    have h1 : (a ++ x :: List.replicate i 0)[b.length]? = some x := by
      rw [h, List.getElem?_append_right (by omega), Nat.sub_self]; rfl
    rw [List.getElem?_append_right (by omega)] at h1
    obtain ⟨d, hd⟩ : ∃ d, b.length - a.length = d + 1 := ⟨b.length - a.length - 1, by omega⟩
    rw [hd, List.getElem?_cons_succ, List.getElem?_replicate] at h1
    split at h1
    · injection h1 with h1; exact hx h1.symm
    · cases h1
  rcases Nat.lt_trichotomy a.length b.length with hl | hl | hl
  · exact (key a b i j hl h).elim
  · exact List.append_inj_left h hl
  · exact (key b a j i hl h.symm).elim

theorem unxor_last {l l' : List U64} (hl : l ≠ []) (hl' : l' ≠ []) (c : U64) (a b : List U64)
    (h : a ++ l.dropLast ++ [l.getLastD 0 ^^^ c] = b ++ l'.dropLast ++ [l'.getLastD 0 ^^^ c]) : a ++ l = b ++ l' := by
  obtain ⟨h1, h2⟩ := List.append_inj' h rfl
  injection h2 with h2
  have h3 : l.getLastD 0 = l'.getLastD 0 := by
    have := congrArg (· ^^^ c) h2
    simpa [BitVec.xor_assoc] using this
  have e : ∀ l : List U64, l ≠ [] → l = l.dropLast ++ [l.getLastD 0] := by
    intro l hl
    conv_lhs => rw [← List.dropLast_append_getLast hl]
    rw [List.getLastD_eq_getLast?, List.getLast?_eq_getLast_of_ne_nil hl]; rfl
  rw [e l hl, e l' hl', ← List.append_assoc, ← List.append_assoc, h1, h3]

/-- What is absorbed determines the parameters and the complete words. -/
theorem crateWords_inj {k k' T T' R R' C C' : Nat} {pwd salt pwd' salt' : List Byte}
    (hk : k < 2 ^ 64 ∧ k' < 2 ^ 64) (hT : T < 2 ^ 64 ∧ T' < 2 ^ 64) (hR : R < 2 ^ 64 ∧ R' < 2 ^ 64)
    (hC : C < 2 ^ 64 ∧ C' < 2 ^ 64) (hp : pwd.length < 2 ^ 64 ∧ pwd'.length < 2 ^ 64)
    (hs : salt.length < 2 ^ 64 ∧ salt'.length < 2 ^ 64)
    (h : crateWords k pwd salt T R C = crateWords k' pwd' salt' T' R' C') :
    k = k' ∧ T = T' ∧ R = R' ∧ C = C' ∧ pwd.length = pwd'.length ∧ salt.length = salt'.length ∧
      words64 pwd = words64 pwd' ∧ words64 salt = words64 salt' := by
  unfold crateWords at h
  dsimp only at h
  have h1 := strip_zeros (x := 0x80) (by decide) _ _ _ _ (unxor_last (by simp) (by simp) _ _ _ h)
  obtain ⟨h2, h3⟩ := List.append_inj' h1 (by simp [basil])
  simp only [basil, List.map_cons, List.map_nil, List.cons.injEq, and_true] at h3
  obtain ⟨a1, a2, a3, a4, a5, a6⟩ := h3
  rw [ofNat_inj64 (by omega) (by omega)] at a1 a2 a3 a4 a5 a6
  obtain ⟨b1, b2⟩ := List.append_inj h2 (by rw [Bytes.words64_length, Bytes.words64_length, a2])
  exact ⟨a1, a4, a5, a6, a2, a3, b1, b2⟩

theorem crateWords_congr {k T R C : Nat} {pwd salt pwd' salt' : List Byte} (h1 : pwd.length = pwd'.length)
    (h2 : salt.length = salt'.length) (h3 : words64 pwd = words64 pwd') (h4 : words64 salt = words64 salt') :
    crateWords k pwd salt T R C = crateWords k pwd' salt' T R C := by
  unfold crateWords
  rw [h1, h2, h3, h4]

/-! ## The code looks at complete words only -/

theorem forLoop_congr {σ : Type} {body body' : Nat → σ → Res σ} (i n : Nat) (s : σ)
    (h : ∀ j s, j < n → body (i + j) s = body' (i + j) s) : forLoop i n body s = forLoop i n body' s := by
  induction n generalizing i s with
  | zero => rfl
  | succ n ih =>
    unfold forLoop
    rw [← Nat.add_zero i, h 0 s (by omega)]
    refine congrArg _ (funext fun s' => ?_)
    rw [Nat.add_zero]
    exact ih (i + 1) s' fun j s hj => by
      rw [Nat.add_assoc, Nat.add_comm 1 j]; exact h (j + 1) s (by omega)

theorem writeWords_congr {bytes bytes' : List U8} (hl : bytes.length = bytes'.length) (hw : words64 bytes = words64 bytes')
    (ptr : Nat) (m : Matrix) : writeWords bytes ptr m = writeWords bytes' ptr m := by
  unfold writeWords
  rw [hl]
  refine forLoop_congr _ _ _ fun j m hj => ?_
  rw [Nat.zero_add, ← bind_assoc, ← bind_assoc, Bytes.read64_slice (s := bytes) (lo := 8 * j) (by omega),
    Bytes.read64_slice (s := bytes') (lo := 8 * j) (by omega), pure_bind, pure_bind]
  have e1 := Bytes.words64_getElem (bs := bytes) (i := j) (by rw [Bytes.words64_length]; omega)
  have e2 := Bytes.words64_getElem (bs := bytes') (i := j) (by rw [Bytes.words64_length]; omega)
  rw [← e1, ← e2]
  simp only [hw]

theorem writeInput_congr (p : Profile) (k : U64) {pwd pwd' salt salt' : List U8} (h1 : pwd.length = pwd'.length)
    (h2 : salt.length = salt'.length) (h3 : words64 pwd = words64 pwd') (h4 : words64 salt = words64 salt') (T R C : U64)
    (n : I64) (m : Matrix) : writeInput p k pwd salt T R C n m = writeInput p k pwd' salt' T R C n m := by
  unfold writeInput
  simp only [writeWords_congr h1 h3, writeWords_congr h2 h4, h1, h2]

theorem front_congr (p : Profile) (k : U64) {pwd pwd' salt salt' : List U8} (h1 : pwd.length = pwd'.length)
    (h2 : salt.length = salt'.length) (h3 : words64 pwd = words64 pwd') (h4 : words64 salt = words64 salt') (T R C : U64) :
    front p k pwd salt T R C = front p k pwd' salt' T R C := by
  unfold front
  simp only [writeInput_congr p k h1 h2 h3 h4, h1, h2]

theorem lyra2_congr (p : Profile) (k : U64) {pwd pwd' salt salt' : List U8} (h1 : pwd.length = pwd'.length)
    (h2 : salt.length = salt'.length) (h3 : words64 pwd = words64 pwd') (h4 : words64 salt = words64 salt') (T R C : U64) :
    lyra2 p k pwd salt T R C = lyra2 p k pwd' salt' T R C := by
  rw [lyra2_front, lyra2_front, front_congr p k h1 h2 h3 h4]

theorem lyra2mod_congr (p : Profile) (k : U64) {pwd pwd' salt salt' : List U8} (h1 : pwd.length = pwd'.length)
    (h2 : salt.length = salt'.length) (h3 : words64 pwd = words64 pwd') (h4 : words64 salt = words64 salt') (T R C : U64) :
    Model.Lyra2mod.lyra2mod p k pwd salt T R C = Model.Lyra2mod.lyra2mod p k pwd' salt' T R C := by
  rw [lyra2mod_front, lyra2mod_front, front_congr p k h1 h2 h3 h4]

theorem words64_nil_of_short {t : List Byte} (h : t.length < 8) : words64 t = [] := by
  apply List.length_eq_zero_iff.mp
  rw [Bytes.words64_length]; omega

/-- Words of a byte string with an incomplete last word. -/
theorem words64_trailing (w t t' : List Byte) (hw : w.length % 8 = 0) (ht : t.length < 8) (ht' : t'.length < 8) :
    words64 (w ++ t) = words64 (w ++ t') := by
  rw [words64_append _ _ hw, words64_append _ _ hw, words64_nil_of_short ht, words64_nil_of_short ht']

end Proofs.Lyra2
