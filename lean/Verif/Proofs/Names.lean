import Verif.Source.Parser

/-! Full paths, as strings: `resolve` joins the segments with `::`. -/

namespace Proofs.Names
open Source Source.Parser

/-- Digits without a leading zero. -/
def Proper (w : List Nat) : Prop := (∀ c ∈ w, c < 0x200000) ∧ ∀ rest, w ≠ 0 :: rest

theorem wordCode_append (v : Nat) (w w' : List Nat) : wordCode v (w ++ w') = wordCode (wordCode v w) w' := by
  induction w generalizing v with
  | nil => rfl
  | cons c w ih => exact ih _

theorem wordCode_ne_zero {v : Nat} (hv : v ≠ 0) (w : List Nat) : wordCode v w ≠ 0 := by
  induction w generalizing v with
  | nil => exact hv
  | cons c w ih => exact ih (by omega)

theorem digits_step {fuel n : Nat} (hn : n ≠ 0) (acc : List Nat) :
    digits (fuel + 1) n acc = digits fuel (n / 0x200000) (n % 0x200000 :: acc) := by
  rw [digits, show Nat.beq n 0 = false from ?_]
  · rfl
  · cases h : Nat.beq n 0
    · rfl
    · exact (hn (Nat.eq_of_beq_eq_true h)).elim

theorem digits_zero (fuel : Nat) (acc : List Nat) : digits fuel 0 acc = acc := by
  cases fuel <;> rfl

theorem digits_wordCode_rev (w : List Nat) : Proper w.reverse → ∀ (fuel : Nat) (acc : List Nat), wordCode 0 w.reverse ≤ fuel →
    digits fuel (wordCode 0 w.reverse) acc = w.reverse ++ acc := by
  induction w with
  | nil => intro _ fuel acc _; exact digits_zero fuel acc
  | cons c w ih =>
    intro hw fuel acc hf
    rw [List.reverse_cons] at hw hf ⊢
    rw [wordCode_append] at hf ⊢
    change wordCode 0 w.reverse * 0x200000 + c ≤ fuel at hf
    change digits fuel (wordCode 0 w.reverse * 0x200000 + c) acc = _
    have hc : c < 0x200000 := hw.1 c (by simp)
    have hne : wordCode 0 w.reverse * 0x200000 + c ≠ 0 := by
      cases hr : w.reverse with
      | nil =>
        rw [hr] at hw
        change 0 * 0x200000 + c ≠ 0
        have := hw.2 []
        intro h
        exact this (by simp; omega)
      | cons d ds =>
        have hd : d ≠ 0 := fun h => hw.2 (ds ++ [c]) (by rw [hr, h]; rfl)
        have : wordCode 0 (d :: ds) ≠ 0 := wordCode_ne_zero (v := 0 * 0x200000 + d) (by omega) ds
        omega
    obtain ⟨fuel, rfl⟩ : ∃ f, fuel = f + 1 := ⟨fuel - 1, by omega⟩
    rw [digits_step hne, show (wordCode 0 w.reverse * 0x200000 + c) / 0x200000 = wordCode 0 w.reverse by omega,
      show (wordCode 0 w.reverse * 0x200000 + c) % 0x200000 = c by omega, ih ?_ fuel _ (by omega), List.append_assoc]
    · rfl
    · exact ⟨fun x hx => hw.1 x (List.mem_append_left _ hx), fun rest h => hw.2 (rest ++ [c]) (by rw [h]; rfl)⟩

theorem digits_wordCode {w : List Nat} (h : Proper w) : digits (wordCode 0 w) (wordCode 0 w) [] = w := by
  have := digits_wordCode_rev w.reverse (by rwa [List.reverse_reverse]) (wordCode 0 w) [] (by rw [List.reverse_reverse]; exact Nat.le_refl _)
  rwa [List.reverse_reverse, List.append_nil] at this

theorem wordCode_digits : ∀ (fuel n : Nat) (acc : List Nat), n ≤ fuel → wordCode 0 (digits fuel n acc) = wordCode n acc := by
  intro fuel
  induction fuel with
  | zero => intro n acc h; rw [show n = 0 by omega]; rfl
  | succ fuel ih =>
    intro n acc h
    by_cases hn : n = 0
    · subst hn; rfl
    · rw [digits_step hn, ih _ _ (by omega)]
      change wordCode (n / 0x200000 * 0x200000 + n % 0x200000) acc = _
      rw [show n / 0x200000 * 0x200000 + n % 0x200000 = n by omega]

theorem proper_digits : ∀ (fuel n : Nat) (acc : List Nat), n ≤ fuel → (∀ c ∈ acc, c < 0x200000) → (n = 0 → ∀ rest, acc ≠ 0 :: rest) →
    Proper (digits fuel n acc) := by
  intro fuel
  induction fuel with
  | zero => intro n acc h h1 h2; exact ⟨h1, h2 (by omega)⟩
  | succ fuel ih =>
    intro n acc h h1 h2
    by_cases hn : n = 0
    · subst hn; exact ⟨h1, h2 rfl⟩
    · rw [digits_step hn]
      refine ih _ _ (by omega) (fun c hc => ?_) fun h0 rest e => ?_
      · rcases List.mem_cons.1 hc with rfl | hc
        · omega
        · exact h1 c hc
      · have := (List.cons.inj e).1
        omega

/-- The characters of a path. -/
def joined : List (List Nat) → List Nat
  | [] => []
  | [w] => w
  | w :: ws => w ++ [c!":", c!":"] ++ joined ws

theorem joinPath_eq (path : List Nat) : ∀ w, joinPath (wordCode 0 w) path = wordCode 0 (w ++ joined (path.map fun s => digits s s [])) := by
  induction path with
  | nil => intro w; rw [List.map_nil, joined, List.append_nil]; rfl
  | cons s path ih =>
    intro w
    cases path with
    | nil => rw [List.map_cons, List.map_nil, joined, wordCode_append]; rfl
    | cons t path =>
      rw [List.map_cons, List.map_cons, joined, ← List.map_cons (f := fun s => digits s s []), ← List.append_assoc, ← ih]
      · rw [wordCode_append, wordCode_append]; rfl
      · simp

theorem proper_joined : ∀ (ws : List (List Nat)), (∀ w ∈ ws, Proper w) → Proper (joined ws)
  | [], _ => ⟨fun _ h => (List.not_mem_nil h).elim, fun _ h => by cases h⟩
  | [w], h => h w (List.mem_cons_self ..)
  | w :: v :: ws, h => by
    have ih := proper_joined (v :: ws) fun x hx => h x (List.mem_cons_of_mem _ hx)
    have hw := h w (List.mem_cons_self ..)
    rw [joined]
    · refine ⟨fun c hc => ?_, fun rest e => ?_⟩
      · rcases List.mem_append.1 hc with hc | hc
        · rcases List.mem_append.1 hc with hc | hc
          · exact hw.1 c hc
          · exact (show ∀ x ∈ [c!":", c!":"], x < 0x200000 by decide) c hc
        · exact ih.1 c hc
      · cases w with
        | nil => exact absurd (List.cons.inj e).1 (by decide)
        | cons d w => exact hw.2 w (by rw [(List.cons.inj e).1])
    · simp

theorem ofCodes_append (a b : List Nat) : ofCodes (a ++ b) = ofCodes a ++ ofCodes b := by
  unfold ofCodes
  rw [List.map_append, String.ofList_append]

theorem ofCodes_joined : ∀ (ws : List (List Nat)), ofCodes (joined ws) = "::".intercalate (ws.map ofCodes)
  | [] => rfl
  | [w] => by simp [joined, String.intercalate_singleton]
  | w :: v :: ws => by
    rw [joined, ofCodes_append, ofCodes_append, ofCodes_joined (v :: ws)]
    · simp only [List.map_cons]
      rw [String.intercalate_cons_cons]
      rfl
    · simp

/-- The full path as a string. -/
theorem decode_joinPath (path : List Nat) : decode (joinPath 0 path) = "::".intercalate (path.map decode) := by
  have h := joinPath_eq path []
  rw [List.nil_append] at h
  change joinPath 0 path = _ at h
  rw [h, decode, digits_wordCode (proper_joined _ ?_), ofCodes_joined, List.map_map]
  · rfl
  · intro w hw
    obtain ⟨s, _, rfl⟩ := List.mem_map.1 hw
    exact proper_digits s s [] (Nat.le_refl s) (fun _ h => (List.not_mem_nil h).elim) fun _ _ h => by cases h

theorem wordCode_foldl (v : Nat) (w : List Nat) : w.foldl (fun n c => n * 0x200000 + c) v = wordCode v w := by
  induction w generalizing v with
  | nil => rfl
  | cons c w ih => exact ih _

theorem decode_encode (s : String) (h : '\x00' ∉ s.toList) : decode (encode s) = s := by
  have hs : Proper (toCodes s) := by
    refine ⟨fun c hc => ?_, fun rest e => ?_⟩
    · obtain ⟨x, _, rfl⟩ := List.mem_map.1 hc
      have := x.valid
      have : x.toNat.isValidChar := this
      unfold Nat.isValidChar at this
      omega
    · have hm : 0 ∈ toCodes s := by rw [e]; exact List.mem_cons_self ..
      obtain ⟨x, hx, h0⟩ := List.mem_map.1 hm
      apply h
      rwa [show '\x00' = x by rw [← Char.ofNat_toNat x, h0]]
  rw [encode, wordCode_foldl, decode, digits_wordCode hs, ofCodes, toCodes, List.map_map,
    show Char.ofNat ∘ Char.toNat = id from funext Char.ofNat_toNat, List.map_id, String.ofList_toList]

end Proofs.Names
