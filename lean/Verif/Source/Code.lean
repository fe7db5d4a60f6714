import Lean.Elab.Term

/-!
# Strings as numbers

The parser (`Source.Parser`) works on numbers in the place of strings, so that the kernel can run it: on numbers the kernel
computes, on strings it does not. `encode` and `decode` go from one to the other; `c!"abc"` stands for the number of a string.
-/

namespace Source

/-- The digits of a number to the base 2^21, in front of `acc`. -/
def digits : Nat → Nat → List Nat → List Nat
  | 0, _, acc => acc
  | fuel + 1, n, acc => bif Nat.beq n 0 then acc else digits fuel (n / 0x200000) (n % 0x200000 :: acc)

/-- The string with these characters. -/
def ofCodes (cs : List Nat) : String := String.ofList (cs.map Char.ofNat)

/-- The characters of the string. -/
def toCodes (s : String) : List Nat := s.toList.map Char.toNat

/-- The number whose digits are the characters of the string. -/
def encode (s : String) : Nat := (toCodes s).foldl (fun n c => n * 0x200000 + c) 0

/-- The string whose characters are the digits of the number. -/
def decode (n : Nat) : String := ofCodes (digits n n [])

open Lean Elab Term in
/-- `c!"abc"` is the number of the string `"abc"`. -/
elab:max "c!" s:str : term => return mkRawNatLit (encode s.getString)

/-- Are the numbers characters? -/
def areChars (cs : List Nat) : Bool :=
  cs.all fun d => Nat.blt d 0xd800 || (Nat.blt 0xdfff d && Nat.blt d 0x110000)

theorem toNat_ofNat {d : Nat} (h : (Nat.blt d 0xd800 || (Nat.blt 0xdfff d && Nat.blt d 0x110000)) = true) : (Char.ofNat d).toNat = d := by
  have hv : d.isValidChar := by
    simp only [Bool.or_eq_true, Bool.and_eq_true, Nat.blt_eq] at h
    unfold Nat.isValidChar
    omega
  unfold Char.ofNat
  rw [dif_pos hv]
  rfl

theorem toCodes_ofCodes {cs : List Nat} (h : areChars cs = true) : toCodes (ofCodes cs) = cs := by
  unfold toCodes ofCodes
  rw [String.toList_ofList]
  unfold areChars at h
  induction cs with
  | nil => rfl
  | cons c cs ih =>
    rw [List.all_cons, Bool.and_eq_true] at h
    rw [List.map_cons, List.map_cons, toNat_ofNat h.1, ih h.2]

theorem map_toCodes_ofCodes {ls : List (List Nat)} (h : ls.all areChars = true) : (ls.map ofCodes).map toCodes = ls := by
  induction ls with
  | nil => rfl
  | cons n ls ih =>
    rw [List.all_cons, Bool.and_eq_true] at h
    rw [List.map_cons, List.map_cons, toCodes_ofCodes h.1, ih h.2]

example : encode "row" = c!"row" := by decide
example : decode c!"row" = "row" := rfl

end Source
