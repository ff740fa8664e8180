/-!
# Byte strings

Go strings are immutable byte sequences.  The model represents them as lists of
bytes so that every function on them computes inside the kernel.
-/

namespace Gofre

/-- A Go `string`. -/
abbrev Str := List UInt8

/-- `b!"abc"` is the UTF-8 byte list of a string literal. -/
syntax:max "b!" str : term

open Lean in
macro_rules
  | `(b! $s:str) => do
    let bytes := s.getString.toUTF8.toList
    let elems ← bytes.mapM fun b => `(($(quote b.toNat) : UInt8))
    `(([$(elems.toArray),*] : List UInt8))

/-- The separator `/`. -/
abbrev slash : UInt8 := 47

/-- Go `strings.Split(s, sep)` for a one-byte separator. -/
def splitOn (sep : UInt8) : Str → List Str
  | [] => [[]]
  | c :: l =>
    if c = sep then [] :: splitOn sep l
    else
      match splitOn sep l with
      | [] => [[c]]
      | h :: t => (c :: h) :: t

/-- Go `strings.Join(parts, sep)` for a one-byte separator. -/
def joinWith (sep : UInt8) : List Str → Str
  | [] => []
  | [p] => p
  | p :: q :: ps => p ++ sep :: joinWith sep (q :: ps)

theorem splitOn_ne_nil (sep : UInt8) (s : Str) : splitOn sep s ≠ [] := by
  cases s with
  | nil => simp [splitOn]
  | cons c l =>
    simp only [splitOn]
    split
    · simp
    · split <;> simp

theorem joinWith_cons_cons (sep c : UInt8) (h : Str) (t : List Str) :
    joinWith sep ((c :: h) :: t) = c :: joinWith sep (h :: t) := by
  cases t <;> simp [joinWith]

/-- Joining what was split gives the text back. -/
theorem joinWith_splitOn (sep : UInt8) (s : Str) : joinWith sep (splitOn sep s) = s := by
  induction s with
  | nil => simp [splitOn, joinWith]
  | cons c l ih =>
    simp only [splitOn]
    split
    · rename_i h
      subst h
      cases hs : splitOn c l with
      | nil => exact absurd hs (splitOn_ne_nil _ _)
      | cons h t => rw [hs] at ih; simp [joinWith, ih]
    · split
      · rename_i hs; exact absurd hs (splitOn_ne_nil _ _)
      · rename_i h t hs
        rw [joinWith_cons_cons, ← hs, ih]

theorem splitOn_no_sep (sep : UInt8) (s : Str) : ∀ p ∈ splitOn sep s, sep ∉ p := by
  induction s with
  | nil => simp [splitOn]
  | cons c l ih =>
    simp only [splitOn]
    split
    · intro p hp
      simp at hp
      rcases hp with rfl | hp
      · simp
      · exact ih p hp
    · rename_i hc
      split
      · intro p hp; simp at hp; subst hp; simpa using fun h => hc h.symm
      · rename_i h t hs
        rw [hs] at ih
        intro p hp
        simp at hp
        rcases hp with rfl | hp
        · have := ih h (by simp)
          simp only [List.mem_cons, not_or]
          exact ⟨fun h => hc h.symm, this⟩
        · exact ih p (by simp [hp])

theorem splitOn_of_not_mem {sep : UInt8} {s : Str} (h : sep ∉ s) : splitOn sep s = [s] := by
  induction s with
  | nil => simp [splitOn]
  | cons c l ih =>
    simp at h
    have hc : ¬ c = sep := fun he => h.1 he.symm
    simp [splitOn, hc, ih h.2]

theorem splitOn_append {sep : UInt8} {p : Str} (h : sep ∉ p) (s : Str) :
    splitOn sep (p ++ sep :: s) = p :: splitOn sep s := by
  induction p with
  | nil => simp [splitOn]
  | cons c l ih =>
    simp at h
    have hc : ¬ c = sep := fun he => h.1 he.symm
    simp [splitOn, hc, ih h.2]

/-- Splitting what was joined gives the parts back. -/
theorem splitOn_joinWith {sep : UInt8} {ps : List Str} (hne : ps ≠ [])
    (h : ∀ p ∈ ps, sep ∉ p) : splitOn sep (joinWith sep ps) = ps := by
  match ps with
  | [] => exact absurd rfl hne
  | [p] => simpa [joinWith] using splitOn_of_not_mem (h p (by simp))
  | p :: q :: ps =>
    simp only [joinWith]
    rw [splitOn_append (h p (by simp)),
      splitOn_joinWith (by simp) (fun x hx => h x (by simp at hx ⊢; right; exact hx))]

/-- ASCII upper-casing of a byte. -/
def upperByte (b : UInt8) : UInt8 := if 97 ≤ b ∧ b ≤ 122 then b - 32 else b
/-- ASCII lower-casing of a byte. -/
def lowerByte (b : UInt8) : UInt8 := if 65 ≤ b ∧ b ≤ 90 then b + 32 else b

/-- The ASCII digit `d`. -/
def digitByte (d : Nat) : UInt8 := UInt8.ofNat (48 + d)

/-- Decimal digits of a natural number, most significant first (`strconv.Itoa` on a
non-negative number below `10^fuel`). -/
def digitsFuel : Nat → Nat → Str
  | 0, _ => []
  | f + 1, n =>
    if n < 10 then [digitByte n]
    else digitsFuel f (n / 10) ++ [digitByte (n % 10)]

/-- `strconv.Itoa` for a non-negative `int` (always below `10^20`). -/
def itoa (n : Nat) : Str := digitsFuel 20 n

/-- Value of a non-empty string of decimal digits; `none` if empty or any other byte. -/
def parseDigitsAux : Nat → Str → Option Nat
  | acc, [] => some acc
  | acc, c :: l => if 48 ≤ c ∧ c ≤ 57 then parseDigitsAux (acc * 10 + (c.toNat - 48)) l else none

/-- Decimal value of a byte string. -/
def parseDigits (s : Str) : Option Nat := if s = [] then none else parseDigitsAux 0 s

theorem parseDigitsAux_append (acc : Nat) (s t : Str) :
    parseDigitsAux acc (s ++ t) = (parseDigitsAux acc s).bind fun a => parseDigitsAux a t := by
  induction s generalizing acc with
  | nil => simp [parseDigitsAux]
  | cons c s ih =>
    simp only [List.cons_append, parseDigitsAux]
    split
    · exact ih _
    · simp

theorem digit_toNat {d : Nat} (h : d < 10) : (digitByte d).toNat = 48 + d := by
  rw [digitByte, UInt8.toNat_ofNat']; omega

theorem digit_range {d : Nat} (h : d < 10) :
    48 ≤ digitByte d ∧ digitByte d ≤ 57 := by
  rw [UInt8.le_iff_toNat_le, UInt8.le_iff_toNat_le, digit_toNat h]
  simp; omega

theorem parseDigitsAux_digitsFuel (f n : Nat) (h : n < 10 ^ f) :
    parseDigitsAux 0 (digitsFuel f n) = some n := by
  induction f generalizing n with
  | zero => simp at h; simp [digitsFuel, parseDigitsAux, h]
  | succ f ih =>
    simp only [digitsFuel]
    split
    · rename_i hn
      have := digit_range hn
      simp [parseDigitsAux, this, digit_toNat hn]
    · have h10 : n % 10 < 10 := Nat.mod_lt _ (by omega)
      have hd := digit_range h10
      rw [parseDigitsAux_append, ih _ (by
        rw [Nat.pow_succ] at h; exact Nat.div_lt_of_lt_mul (by omega))]
      simp [parseDigitsAux, hd, digit_toNat h10]
      omega

theorem digitsFuel_ne_nil {f n : Nat} (h : 0 < f) : digitsFuel f n ≠ [] := by
  cases f with
  | zero => omega
  | succ f => simp only [digitsFuel]; split <;> simp

theorem parseDigits_itoa {n : Nat} (h : n < 10 ^ 20) : parseDigits (itoa n) = some n := by
  rw [parseDigits, itoa, if_neg (digitsFuel_ne_nil (f := 20) (by omega))]
  exact parseDigitsAux_digitsFuel 20 n h

theorem digitsFuel_range (f n : Nat) : ∀ c ∈ digitsFuel f n, 48 ≤ c ∧ c ≤ 57 := by
  induction f generalizing n with
  | zero => simp [digitsFuel]
  | succ f ih =>
    simp only [digitsFuel]
    split
    · rename_i hn
      intro c hc
      simp at hc; subst hc; exact digit_range hn
    · intro c hc
      simp at hc
      rcases hc with hc | rfl
      · exact ih _ c hc
      · exact digit_range (Nat.mod_lt _ (by omega))

theorem itoa_range (n : Nat) : ∀ c ∈ itoa n, 48 ≤ c ∧ c ≤ 57 := digitsFuel_range 20 n

end Gofre
