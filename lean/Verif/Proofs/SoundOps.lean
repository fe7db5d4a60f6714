import Verif.Proofs.LoopIter
import Verif.Source.Values

/-! The operations of the interpreter yield values of the types that the typing rules give them. -/

namespace Proofs.Sound
open Source Rust

/-- What the computation returns, if it returns, satisfies `Q`. -/
def Ret {α : Type} (m : Res α) (Q : α → Prop) : Prop := ∀ a, m = pure a → Q a

section
variable {α β : Type}

theorem Ret.pure {a : α} {Q : α → Prop} (h : Q a) : Ret (pure a) Q := fun _ e => Res.pure_inj e ▸ h

theorem Ret.throw {e : Panic} {Q : α → Prop} : Ret (throw e : Res α) Q := fun a h => by
  rw [Res.throw_eq, Res.pure_eq] at h
  cases h

theorem Ret.stuck {Q : α → Prop} : Ret (stuck : Res α) Q := .throw

theorem Ret.none {Q : α → Prop} : Ret (none : Option (Except Panic α)) Q := fun a h => by
  rw [Res.pure_eq] at h
  cases h

theorem Ret.bind {m : Res α} {f : α → Res β} {Q : α → Prop} {Q' : β → Prop} (h : Ret m Q) (h' : ∀ a, Q a → Ret (f a) Q') :
    Ret (m >>= f) Q' := fun b e => by
  rcases Res.cases m with ⟨a, rfl⟩ | ⟨e', rfl⟩ | hd
  · rw [pure_bind] at e
    exact h' a (h a rfl) b e
  · rw [Res.throw_bind] at e
    exact Ret.throw b e
  · unfold Res.Diverges at hd
    subst hd
    exact Ret.none b e

theorem Ret.mono {m : Res α} {Q Q' : α → Prop} (h : Ret m Q) (h' : ∀ a, Q a → Q' a) : Ret m Q' := fun a e => h' a (h a e)

theorem Ret.triv {m : Res α} : Ret m fun _ => True := fun _ _ => trivial

theorem Ret.self {m : Res α} : Ret m fun a => m = Pure.pure a := fun _ h => h

theorem Ret.forLoop {body : Nat → α → Res α} {P : α → Prop} (i n : Nat) (s : α) (h0 : P s)
    (h : ∀ k s, k < i + n → P s → Ret (body k s) P) : Ret (forLoop i n body s) P := by
  induction n generalizing i s with
  | zero => exact .pure h0
  | succ n ih => exact (h i s (by omega) h0).bind fun s hs => ih (i + 1) s hs fun k s hk => h k s (by omega)

theorem Ret.loop {body : α → Res (α ⊕ β)} {P : α → Prop} {Q : β → Prop} (s : α) (h0 : P s)
    (h : ∀ s, P s → Ret (body s) fun r => match r with | .inl s => P s | .inr b => Q b) : Ret (loop body s) Q := fun b e => by
  rw [Res.pure_eq] at e
  obtain ⟨n, hn⟩ := loopN_of_loop body s _ e
  clear e
  induction n generalizing s with
  | zero => cases hn
  | succ n ih =>
    rw [loopN] at hn
    rcases bind_some hn with ⟨e, he, hr⟩ | ⟨a, ha, hn⟩
    · cases hr
    · have := h s h0 a ha
      match a with
      | .inl s' => exact ih s' this hn
      | .inr b' =>
        have hb : (Pure.pure b' : Res β) = Pure.pure b := hn
        exact Res.pure_inj hb ▸ this
end

variable {u : Nat} {S : List (String × List (String × Ty))}

theorem isOf_passes {v : Val} {k : Kind} {t : Ty} (h : v.IsOf u S k) (hp : Passes k t) : v.IsOf u S (.ty t) := by
  rcases hp with rfl | ⟨s, n, rfl, rfl⟩
  · exact h
  · cases v <;> rw [Val.IsOf] at h ⊢
    all_goals simp at h
    · obtain ⟨h0, rfl, -⟩ := h; exact ⟨h0, .inl rfl⟩
    all_goals (obtain ⟨rfl, -⟩ := h; exact .inl rfl)

theorem ofLit_isOf (hu : 32 ≤ u) (t : IntTy) (n : Int) : Ret (ofLit t n) (Val.IsOf u S · (.int t)) := by
  cases t <;> rw [ofLit] <;> split
  case usize.isTrue h =>
    refine .pure ?_
    rw [Val.IsOf]
    refine ⟨?_, rfl⟩
    have : 2 ^ 32 ≤ 2 ^ u := Nat.pow_le_pow_right (by omega) hu
    rw [BitVec.toNat_ofInt]
    omega
  all_goals first | exact .stuck | exact .pure (by rw [Val.IsOf])

theorem asInt_isOf (hu : 32 ≤ u) {t : IntTy} {v : Val} (h : v.IsOf u S (.int t)) : Ret (asInt t v) (Val.IsOf u S · (.int t)) := by
  unfold asInt
  split
  all_goals first
    | exact ofLit_isOf hu _ _
    | exact .stuck
    | (split
       · exact .pure h
       · exact .stuck)

theorem asTy_isOf (hu : 32 ≤ u) {v : Val} {k : Kind} (h : v.IsOf u S k) {want : Option Ty} (hw : ∀ t, want = some t → Passes k t) :
    Ret (asTy want v) (Val.IsOf u S · k) := by
  unfold asTy
  split
  · rename_i t _
    rcases hw _ rfl with rfl | ⟨_, _, _, h⟩
    · exact asInt_isOf hu h
    · cases h
  · exact .pure h

theorem asTy_some (hu : 32 ≤ u) {v : Val} {t : Ty} (h : v.IsOf u S (.ty t)) : Ret (asTy (some t) v) (Val.IsOf u S · (.ty t)) :=
  asTy_isOf hu h fun _ e => .inl (by cases e; rfl)

theorem likeOld_isOf (hu : 32 ≤ u) {old v : Val} {k : Kind} (ho : old.IsOf u S k) (h : v.IsOf u S k) :
    Ret (likeOld old v) (Val.IsOf u S · k) := by
  unfold likeOld
  split
  all_goals first
    | (rw [Val.IsOf] at ho; subst ho; exact ofLit_isOf hu _ _)
    | (rw [Val.IsOf] at ho; obtain ⟨-, rfl⟩ := ho; exact ofLit_isOf hu _ _)
    | exact .pure h

/-- The type of the result of an operator on numbers of type `t`. -/
def opKind (op : BinOp) (t : IntTy) : Kind :=
  match op with
  | .lt | .eq => .bool
  | _ => .int t

theorem unsignedOp_isOf {w : Nat} {fit : Int → Res (BitVec w)} {mk : BitVec w → Val} {t : IntTy} {B : BitVec w → Prop}
    (hmk : ∀ x, B x → (mk x).IsOf u S (.int t)) (hfit : ∀ e, Ret (fit e) B) (op : BinOp) (a b : BitVec w)
    (hb : ∀ x, bitwise op a b = some x → B x) : Ret (unsignedOp fit mk op a b) (Val.IsOf u S · (opKind op t)) := by
  cases op <;> simp only [unsignedOp, exact, bitwise, opKind] at hb ⊢
  all_goals first
    | exact (hfit _).bind fun x hx => .pure (hmk x hx)
    | exact .pure (hmk _ (hb _ rfl))
    | exact .pure (by rw [Val.IsOf])
    | exact .stuck
    | (split
       · exact (hfit _).bind fun x hx => .pure (hmk x hx)
       · exact .stuck)

theorem signedOp_isOf {w : Nat} {p : Profile} {mk : BitVec w → Val} {t : IntTy} (hmk : ∀ x, (mk x).IsOf u S (.int t))
    (op : BinOp) (a b : BitVec w) : Ret (signedOp p mk op a b) (Val.IsOf u S · (opKind op t)) := by
  cases op <;> simp only [signedOp, exact, bitwise, opKind]
  all_goals first
    | exact (Ret.triv).bind fun x _ => .pure (hmk x)
    | exact .pure (hmk _)
    | exact .pure (by rw [Val.IsOf])
    | exact .stuck
    | (split
       · exact (Ret.triv).bind fun x _ => .pure (hmk x)
       · exact .stuck)

theorem setWidth_lt (x : BitVec u) : (x.setWidth 64).toNat < 2 ^ u := by
  rw [BitVec.toNat_setWidth]
  exact lt_of_le_of_lt (Nat.mod_le _ _) x.isLt

theorem unsignedSize_lt (p : Profile) (e : Int) : Ret (unsignedSize u p e) fun x => x.toNat < 2 ^ u :=
  (Ret.triv).bind fun x _ => .pure (setWidth_lt x)

theorem sameOp_isOf (p : Profile) (op : BinOp) {a b : Val} {t : IntTy} (ha : a.IsOf u S (.int t)) (hb : b.IsOf u S (.int t)) :
    Ret (sameOp u p op a b) (Val.IsOf u S · (opKind op t)) := by
  unfold sameOp
  split
  case h_4 x y =>
    rw [Val.IsOf] at ha hb
    obtain ⟨ha, h⟩ := ha
    cases h
    refine unsignedOp_isOf (B := fun x => x.toNat < 2 ^ u) (fun x hx => by rw [Val.IsOf]; exact ⟨hx, rfl⟩) (unsignedSize_lt p) op _ _ ?_
    intro z hz
    cases op <;> simp only [bitwise] at hz <;> cases hz
    · rw [BitVec.toNat_and]; exact Nat.and_lt_two_pow _ hb.1
    · rw [BitVec.toNat_or]; exact Nat.or_lt_two_pow ha hb.1
    · rw [BitVec.toNat_xor]; exact Nat.xor_lt_two_pow ha hb.1
  all_goals first
    | exact .stuck
    | (rw [Val.IsOf] at ha
       cases ha
       first
         | exact unsignedOp_isOf (B := fun _ => True) (fun x _ => by rw [Val.IsOf]) (fun _ => .triv) op _ _ fun _ _ => trivial
         | exact signedOp_isOf (fun x => by rw [Val.IsOf]) op _ _)

theorem shiftOp_isOf (p : Profile) (op : BinOp) {a b : Val} {t : IntTy} (ha : a.IsOf u S (.int t)) :
    Ret (shiftOp p op a b) (Val.IsOf u S · (.int t)) := by
  unfold shiftOp
  split
  all_goals first
    | exact .stuck
    | (rw [Val.IsOf] at ha
       cases ha
       exact (Ret.triv).bind fun _ _ => (Ret.triv).bind fun _ _ => .pure (by rw [Val.IsOf]))

theorem binOp_isOf (hu : 32 ≤ u) (p : Profile) (op : BinOp) {a b : Val} {t : IntTy} (ha : a.IsOf u S (.int t))
    (hb : op ≠ .shl → op ≠ .shr → b.IsOf u S (.int t)) : Ret (binOp u p op a b) (Val.IsOf u S · (opKind op t)) := by
  unfold binOp
  split
  · exact shiftOp_isOf p _ ha
  · exact shiftOp_isOf p _ ha
  · rename_i h1 h2
    have hb := hb h1 h2
    split
    · cases op <;> simp only [exact]
      all_goals first
        | exact .stuck
        | (split
           · exact .pure (by rw [Val.IsOf]; exact ⟨t, rfl⟩)
           · exact .stuck)
        | (split
           · split
             · exact .pure (by rw [Val.IsOf]; exact ⟨t, rfl⟩)
             · exact .stuck
           · exact .stuck)
    · exact (likeOld_isOf hu hb ha).bind fun x hx => sameOp_isOf p op hx hb
    · exact (likeOld_isOf hu ha hb).bind fun x hx => sameOp_isOf p op ha hx
    · exact sameOp_isOf p op ha hb

theorem negate_isOf (p : Profile) (v : Val) : Ret (negate p v) (Val.IsOf u S · (.int .i64)) := by
  unfold negate
  split
  · exact .pure (by rw [Val.IsOf]; exact ⟨_, rfl⟩)
  · exact (Ret.triv).bind fun _ _ => .pure (by rw [Val.IsOf])
  · exact .stuck

theorem castTo_isOf (t : IntTy) (n : Int) : (castTo u t n).IsOf u S (.int t) := by
  cases t <;> rw [castTo, Val.IsOf]
  exact ⟨setWidth_lt _, rfl⟩

/-- A number that is not negative and below the width. -/
theorem num_size {v : Val} {a : Int} (h : v.IsOf u S (.int .usize)) (hu : 32 ≤ u) (hn : v.num = pure a) : 0 ≤ a ∧ a < 2 ^ u := by
  unfold Val.num at hn
  have : 2 ^ 32 ≤ 2 ^ u := Nat.pow_le_pow_right (by omega) hu
  split at hn
  · split at hn
    · cases Res.pure_inj hn
      refine ⟨by omega, ?_⟩
      have : ((2 ^ u : Nat) : Int) = 2 ^ u := by push_cast; rfl
      omega
    · exact (Ret.stuck (Q := fun _ => False) _ hn).elim
  · rw [Val.IsOf] at h; cases h
  · rw [Val.IsOf] at h; cases h
  · rw [Val.IsOf] at h; cases h
  · cases Res.pure_inj hn
    rw [Val.IsOf] at h
    exact ⟨by omega, by exact_mod_cast h.1⟩
  · rw [Val.IsOf] at h; cases h
  · exact (Ret.stuck (Q := fun _ => False) _ hn).elim

theorem rangeVal_isOf (hu : 32 ≤ u) {lo hi : Val} {t : IntTy} (hl : lo.IsOf u S (.int t)) (hh : hi.IsOf u S (.int t)) {a b n : Int}
    (ha : lo.num = pure a) (hb : hi.num = pure b) (hn : a ≤ n) (hn' : n ≤ b) : (rangeVal lo hi n).IsOf u S (.int t) := by
  have key : t = .usize → (Val.usize (BitVec.ofInt 64 n)).IsOf u S (.int t) := by
    rintro rfl
    have h1 := num_size hl hu ha
    have h2 := num_size hh hu hb
    rw [Val.IsOf]
    refine ⟨?_, rfl⟩
    have h3 : ((2 ^ u : Nat) : Int) = 2 ^ u := by push_cast; rfl
    rw [BitVec.toNat_ofInt]
    omega
  unfold rangeVal
  split
  all_goals first
    | (apply key
       rw [Val.IsOf] at hl
       cases hl.2
       rfl)
    | (apply key
       rw [Val.IsOf] at hh
       cases hh.2
       rfl)
    | (rw [Val.IsOf] at hl ⊢; exact hl)
    | (rw [Val.IsOf] at hh ⊢; exact hh)
    | (rw [Val.IsOf]; exact ⟨t, rfl⟩)

theorem item_isOf {v : Val} {s : Kind} {t : IntTy} (h : v.IsOf u S s) (hs : IsSeq s t) (i : Nat) : Ret (item v i) (Val.IsOf u S · (.int t)) := by
  unfold item
  split
  all_goals first
    | exact .stuck
    | (rw [Val.IsOf] at h
       refine (Ret.triv).bind fun x _ => .pure ?_
       rw [Val.IsOf]
       rcases hs with rfl | ⟨n, rfl⟩ <;> simp at h <;> simp [h])

theorem setItem_isOf {v x : Val} {s : Kind} (h : v.IsOf u S s) (i : Nat) : Ret (setItem v i x) (Val.IsOf u S · s) := by
  unfold setItem
  split
  · refine (Ret.triv).bind fun y _ => ?_
    split
    · split
      · refine .pure ?_
        rw [Val.IsOf] at h ⊢
        rw [List.length_set]
        exact h
      · exact .throw
    · exact .stuck
  · refine (Ret.triv).bind fun y _ => ?_
    split
    · unfold vset
      split
      · rw [pure_bind]
        refine .pure ?_
        rw [Val.IsOf] at h ⊢
        rw [Array.size_set]
        exact h
      · rw [Res.throw_bind]; exact .throw
    · exact .stuck
  · refine (Ret.triv).bind fun y _ => ?_
    split
    · unfold vset
      split
      · rw [pure_bind]
        refine .pure ?_
        rw [Val.IsOf] at h ⊢
        rw [Array.size_set]
        exact h
      · rw [Res.throw_bind]; exact .throw
    · exact .stuck
  · exact .stuck

theorem slice_length {α : Type} (xs : List α) (lo hi : Nat) : Ret (slice xs lo hi) fun ys => ys.length ≤ xs.length := by
  unfold slice
  split
  · refine .pure ?_
    rw [List.length_take, List.length_drop]
    omega
  · exact .throw

theorem part_isOf {v : Val} {s : Kind} {t : IntTy} (h : v.IsOf u S s) (hs : IsSeq s t) (lo hi : Nat) :
    Ret (part v lo hi) (Val.IsOf u S · (.ty (.vec t))) := by
  unfold part
  split
  · rw [Val.IsOf] at h
    refine (slice_length _ lo hi).bind fun x hx => .pure ?_
    rw [Val.IsOf]
    refine ⟨le_trans hx h.1, ?_⟩
    rcases hs with rfl | ⟨n, rfl⟩ <;> simp at h <;> simp [h]
  · rw [Val.IsOf] at h
    refine (Ret.triv).bind fun x _ => .pure ?_
    rw [Val.IsOf]
    rcases hs with rfl | ⟨n, rfl⟩ <;> simp at h <;> simp [h]
  · exact .stuck

theorem reserve_le {size n : Nat} (hs : 1 ≤ size) : Ret (reserve u size n) fun _ => n ≤ maxBytes u := by
  unfold reserve
  split
  · rename_i h
    refine .pure (le_trans ?_ h)
    exact Nat.le_mul_of_pos_left n hs
  · exact .throw

/-- `overwrite` after `part` has not panicked. -/
theorem overwrite_isOf {v s p : Val} {k : Kind} (h : v.IsOf u S k) {hi : Nat} (hp : part v 0 hi = pure p) :
    Ret (overwrite v hi s) (Val.IsOf u S · k) := by
  unfold overwrite
  split
  · rename_i xs ys
    split
    · refine .pure ?_
      have : hi ≤ xs.length := by
        by_contra hc
        rw [part, slice, if_neg (by omega), Res.throw_bind] at hp
        exact Ret.throw (Q := fun _ => False) _ hp
      rw [Val.IsOf] at h ⊢
      rw [List.length_append, List.length_drop, show ys.length + (xs.length - hi) = xs.length by omega]
      exact h
    · exact .throw
  · rename_i xs ys
    split
    · refine .pure ?_
      have : hi ≤ xs.size := by
        by_contra hc
        rw [part, slice, if_neg (by rw [Array.length_toList]; omega), Res.throw_bind] at hp
        exact Ret.throw (Q := fun _ => False) _ hp
      rw [Val.IsOf] at h ⊢
      have hl : (ys ++ (xs.toList.drop hi).toArray).size = xs.size := by
        rw [Array.size_append, List.size_toArray (as := xs.toList.drop hi), List.length_drop, Array.length_toList]
        omega
      rw [hl]
      exact h
    · exact .throw
  · exact .stuck

theorem repeated_isOf {want : Option Ty} {x : Val} {n : Nat} {t : IntTy} {k : Kind}
    (hk : k = .ty (.vec t) ∨ k = .ty (.array t n)) (hw : ∀ t, want = some t → Passes k t) :
    Ret (repeated u want x n) (Val.IsOf u S · k) := by
  unfold repeated
  split
  · have hp := hw _ rfl
    refine (Ret.triv).bind fun y _ => ?_
    split
    · refine (reserve_le (le_refl _)).bind fun _ hn => .pure ?_
      rw [Val.IsOf, List.length_replicate]
      refine ⟨hn, ?_⟩
      rcases hk with rfl | rfl <;> rcases hp with h | ⟨_, _, h, h'⟩ <;> cases h <;> try cases h'
      · exact .inl rfl
      · exact .inr rfl
    · exact .stuck
  · have hp := hw _ rfl
    refine (Ret.triv).bind fun y _ => ?_
    split
    · refine (Ret.triv).bind fun _ _ => .pure ?_
      rw [Val.IsOf, Array.size_replicate]
      rcases hk with rfl | rfl <;> rcases hp with h | ⟨_, _, h, h'⟩ <;> cases h <;> try cases h'
      · exact .inl rfl
      · exact .inr rfl
    · exact .stuck
  · have hp := hw _ rfl
    refine (Ret.triv).bind fun y _ => ?_
    split
    · refine .pure ?_
      rw [Val.IsOf, Array.size_replicate]
      rcases hk with rfl | rfl <;> rcases hp with h | ⟨_, _, h, h'⟩ <;> cases h <;> try cases h'
      exact .inr rfl
    · exact .stuck
  · exact .stuck

theorem mapM_length {α β : Type} (f : α → Res β) (xs : List α) : Ret (xs.mapM f) fun ys => ys.length = xs.length := by
  induction xs with
  | nil => rw [List.mapM_nil]; exact .pure rfl
  | cons x xs ih =>
    rw [List.mapM_cons]
    exact (Ret.triv).bind fun y _ => ih.bind fun ys h => .pure (by rw [List.length_cons, List.length_cons, h])

theorem listed_isOf {want : Option Ty} {xs : List Val} {k : Kind}
    (hk : (xs = [] ∧ ∃ t, k = .ty (.vec t)) ∨ (xs ≠ [] ∧ ∃ t, k = .ty (.array t xs.length))) (hw : ∀ t, want = some t → Passes k t) :
    Ret (listed want xs) (Val.IsOf u S · k) := by
  unfold listed
  split
  · refine (mapM_length _ xs).bind fun ys hl => .pure ?_
    have hp := hw _ rfl
    rw [Val.IsOf, List.size_toArray, hl]
    rcases hk with ⟨-, t, rfl⟩ | ⟨-, t, rfl⟩ <;> rcases hp with h | ⟨_, _, h, h'⟩ <;> cases h <;> try cases h'
    exact .inr rfl
  · refine (mapM_length _ xs).bind fun ys hl => .pure ?_
    have hp := hw _ rfl
    rw [Val.IsOf, List.size_toArray, hl]
    rcases hk with ⟨-, t, rfl⟩ | ⟨-, t, rfl⟩ <;> rcases hp with h | ⟨_, _, h, h'⟩ <;> cases h <;> try cases h'
    exact .inr rfl
  · split
    · rename_i he
      refine .pure ?_
      have hp := hw _ rfl
      rw [Val.IsOf]
      rcases hk with ⟨-, t, rfl⟩ | ⟨hn, -⟩
      · rcases hp with h | ⟨_, _, h, h'⟩ <;> cases h
        exact ⟨Nat.zero_le _, .inl rfl⟩
      · exact absurd (List.isEmpty_iff.mp he) hn
    · exact .stuck
  · exact .stuck

theorem seq_vec {v : Val} {k : Kind} {t : IntTy} (h : v.IsOf u S k) (he : k.elem? = some t) : v.IsOf u S (.ty (.vec t)) := by
  unfold Kind.elem? at he
  split at he
  · cases he; exact h
  · cases he; exact isOf_passes h (.inr ⟨_, _, rfl, rfl⟩)
  · cases he

theorem le_maxBytes (hu : 32 ≤ u) {n : Nat} (h : n ≤ 8) : n ≤ maxBytes u := by
  have : 2 ^ 31 ≤ 2 ^ (u - 1) := Nat.pow_le_pow_right (by omega) (by omega)
  unfold maxBytes
  omega

theorem applyMethod_isOf (hu : 32 ≤ u) {m : String} {v : Val} {args : List Val} {s k : Kind} {ts : List Ty} (h : v.IsOf u S s)
    (hm : methodTypes m s = some (ts, k)) : Ret (applyMethod m v args) (Val.IsOf u S · k) := by
  unfold applyMethod
  split
  · simp only [methodTypes, Option.map_eq_some_iff] at hm
    obtain ⟨t, -, h'⟩ := hm
    cases h'
    rw [Val.IsOf] at h
    have h1 := h.1
    refine .pure ?_
    simp only [Val.IsOf, and_true]
    rw [BitVec.toNat_ofNat]
    have h2 : 2 ^ (u - 1) ≤ 2 ^ u := Nat.pow_le_pow_right (by omega) (by omega)
    have h3 : 0 < 2 ^ u := Nat.two_pow_pos u
    unfold maxBytes at h1
    omega
  · simp only [methodTypes] at hm
    cases hm
    exact .pure h
  · simp only [methodTypes, Option.map_eq_some_iff] at hm
    obtain ⟨t, ht, h'⟩ := hm
    cases h'
    exact .pure (seq_vec h ht)
  · rw [Val.IsOf] at h
    subst h
    simp only [methodTypes] at hm
    cases hm
    exact .pure (by rw [Val.IsOf]; exact ⟨le_maxBytes hu (show 4 ≤ 8 by decide), .inr rfl⟩)
  · rw [Val.IsOf] at h
    subst h
    simp only [methodTypes] at hm
    cases hm
    exact .pure (by rw [Val.IsOf]; exact ⟨le_maxBytes hu (show 8 ≤ 8 by decide), .inr rfl⟩)
  · rw [Val.IsOf] at h
    subst h
    simp only [methodTypes] at hm
    cases hm
    refine (Ret.triv).bind fun y _ => ?_
    split
    · exact .pure (by rw [Val.IsOf])
    · exact .stuck
  · rw [Val.IsOf] at h
    subst h
    simp only [methodTypes] at hm
    cases hm
    refine (Ret.triv).bind fun y _ => ?_
    split
    · exact .pure (by rw [Val.IsOf])
    · exact .stuck
  · rw [Val.IsOf] at h
    subst h
    simp only [methodTypes] at hm
    cases hm
    refine (Ret.triv).bind fun y _ => ?_
    split
    · exact .pure (by rw [Val.IsOf])
    · exact .stuck
  · rw [Val.IsOf] at h
    subst h
    simp only [methodTypes] at hm
    cases hm
    refine (Ret.triv).bind fun y _ => ?_
    split
    · exact .pure (by rw [Val.IsOf])
    · exact .stuck
  · rw [Val.IsOf] at h
    subst h
    simp only [methodTypes] at hm
    cases hm
    refine (Ret.triv).bind fun y _ => ?_
    split
    · exact .pure (by rw [Val.IsOf])
    · exact .stuck
  · simp only [methodTypes, Option.map_eq_some_iff] at hm
    obtain ⟨t, ht, h'⟩ := hm
    cases h'
    have hv := seq_vec h ht
    rw [Val.IsOf] at hv
    have ht : t = .u64 := by rcases hv with hv | hv <;> cases hv; rfl
    subst ht
    refine (Ret.triv).bind fun i _ => (Ret.triv).bind fun r _ => .pure ?_
    rw [Val.IsOf]
    exact ⟨_, by rw [Val.IsOf]; exact .inl rfl, by rw [Val.IsOf]; exact .inl rfl, rfl⟩
  · exact .stuck

theorem applyMutator_isOf {m : String} {v : Val} {args : List Val} {k : Kind} {ts : List Ty} (h : v.IsOf u S k)
    (hm : mutatorTypes m k = some ts) : Ret (applyMutator u m v args) (Val.IsOf u S · k) := by
  unfold applyMutator
  split
  · simp only [mutatorTypes] at hm
    split at hm
    · rw [Val.IsOf] at h
      rcases h with ⟨-, h | h⟩ <;> cases h
      exact (reserve_le (le_refl _)).bind fun _ hn => .pure (by rw [Val.IsOf, List.length_append]; exact ⟨hn, .inl rfl⟩)
    · cases hm
  · simp only [mutatorTypes] at hm
    split at hm
    · rw [Val.IsOf] at h
      rcases h with ⟨-, h | h⟩ <;> cases h
      refine (Ret.triv).bind fun y _ => ?_
      split
      · exact (reserve_le (le_refl _)).bind fun _ hn => .pure (by rw [Val.IsOf, List.length_append]; exact ⟨hn, .inl rfl⟩)
      · exact .stuck
    · cases hm
  · simp only [mutatorTypes] at hm
    split at hm
    · rw [Val.IsOf] at h
      rcases h with h | h <;> cases h
      refine (Ret.triv).bind fun y _ => (Ret.triv).bind fun z _ => ?_
      split
      · exact (Ret.triv).bind fun _ _ => .pure (by rw [Val.IsOf]; exact .inl rfl)
      · exact .stuck
    · cases hm
  · exact .stuck

end Proofs.Sound
