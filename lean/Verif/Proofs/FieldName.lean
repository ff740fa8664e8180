import Verif.Spec.FieldName

/-! # Canonical keys stand for names of fields -/

namespace Gofre.Http
open Gofre.Spec

theorem token_iff (c : UInt8) : isToken c = true ↔ TokenByte c := by
  have : ∀ n : Fin 256, isToken (UInt8.ofNat n) = (b!"0123456789abcdefghijklmnopqrstuvwxyzABCDEFGHIJKLMNOPQRSTUVWXYZ" ++ b!"!#$%&'*+-.^_`|~").contains (UInt8.ofNat n) := by decide +kernel
  have h := this ⟨c.toNat, c.toNat_lt⟩
  simp only [UInt8.ofNat_toNat] at h
  rw [h]; rfl

theorem lower_iff (a b : UInt8) : lowerByte a = lowerByte b ↔ SameLetter a b := by
  unfold lowerByte SameLetter
  have e : ∀ x : UInt8, (65 ≤ x ∧ x ≤ 90) ↔ (65 ≤ x.toNat ∧ x.toNat ≤ 90) := fun x => by rw [UInt8.le_iff_toNat_le, UInt8.le_iff_toNat_le]; rfl
  have s : ∀ x : UInt8, 65 ≤ x.toNat ∧ x.toNat ≤ 90 → (x + 32).toNat = x.toNat + 32 := fun x hx => by
    rw [UInt8.toNat_add]; show (x.toNat + 32) % 256 = _; omega
  simp only [e, ← UInt8.toNat_inj]
  split <;> split <;> (try rw [s _ (by assumption)]) <;> (try rw [s _ (by assumption)]) <;> omega

theorem upper_iff (a b : UInt8) : upperByte a = upperByte b ↔ SameLetter a b := by
  unfold upperByte SameLetter
  have e : ∀ x : UInt8, (97 ≤ x ∧ x ≤ 122) ↔ (97 ≤ x.toNat ∧ x.toNat ≤ 122) := fun x => by rw [UInt8.le_iff_toNat_le, UInt8.le_iff_toNat_le]; rfl
  have s : ∀ x : UInt8, 97 ≤ x.toNat ∧ x.toNat ≤ 122 → (x - 32).toNat = x.toNat - 32 := fun x hx => by
    rw [UInt8.toNat_sub]; show (2 ^ 8 - 32 + x.toNat) % 256 = _; omega
  simp only [e, ← UInt8.toNat_inj]
  split <;> split <;> (try rw [s _ (by assumption)]) <;> (try rw [s _ (by assumption)]) <;> omega

theorem canon_iff : ∀ (a b : Str) (up : Bool), canonBytes up a = canonBytes up b ↔ All2 SameLetter a b := by
  intro a
  induction a with
  | nil =>
    intro b up
    cases b with
    | nil => exact ⟨fun _ => .nil, fun _ => rfl⟩
    | cons y b => exact ⟨fun h => by simp [canonBytes] at h, fun h => nomatch h⟩
  | cons x a ih =>
    intro b up
    cases b with
    | nil => exact ⟨fun h => by simp [canonBytes] at h, fun h => nomatch h⟩
    | cons y b =>
      have hd : SameLetter x y → (x == 45) = (y == 45) := by
        intro h
        rw [Bool.eq_iff_iff, beq_iff_eq, beq_iff_eq, ← UInt8.toNat_inj, ← UInt8.toNat_inj]
        show x.toNat = 45 ↔ y.toNat = 45
        rcases h with rfl | h | h
        · rfl
        · omega
        · omega
      have hl : ((if up then upperByte x else lowerByte x) = if up then upperByte y else lowerByte y) ↔ SameLetter x y := by
        cases up
        · exact lower_iff x y
        · exact upper_iff x y
      simp only [canonBytes, List.cons.injEq, hl]
      constructor
      · rintro ⟨h1, h2⟩
        rw [hd h1] at h2
        exact .cons h1 ((ih _ _).1 h2)
      · intro h
        cases h with
        | cons h1 h2 => exact ⟨h1, by rw [hd h1]; exact (ih _ _).2 h2⟩

theorem token_canon : ∀ (a : Str) (up : Bool), a.all isToken = true → (canonBytes up a).all isToken = true := by
  have hb : ∀ n : Fin 256, isToken (UInt8.ofNat n) = true → isToken (upperByte (UInt8.ofNat n)) = true ∧ isToken (lowerByte (UInt8.ofNat n)) = true := by decide +kernel
  intro a
  induction a with
  | nil => intro _ _; rfl
  | cons x a ih =>
    intro up h
    rw [List.all_cons, Bool.and_eq_true] at h
    have hx := hb ⟨x.toNat, x.toNat_lt⟩
    simp only [UInt8.ofNat_toNat] at hx
    rw [canonBytes, List.all_cons, ih _ h.2, Bool.and_true]
    cases up
    · exact (hx h.1).2
    · exact (hx h.1).1

/-- The keys of a header are names of fields. -/
theorem canonicalKey_iff (a b : Str) : canonicalKey a = canonicalKey b ↔ SameField a b := by
  have ht : ∀ s : Str, s.all isToken = true ↔ ∀ c ∈ s, TokenByte c := fun s => by simp [List.all_eq_true, token_iff]
  unfold canonicalKey SameField
  simp only [← ht]
  by_cases ha : a.all isToken = true
  · by_cases hb : b.all isToken = true
    · rw [if_pos ha, if_pos hb, canon_iff]
      refine ⟨fun h => .inr ⟨ha, hb, h⟩, fun h => ?_⟩
      rcases h with rfl | h
      · exact (canon_iff a a true).1 rfl
      · exact h.2.2
    · rw [if_pos ha, if_neg hb]
      refine ⟨fun h => absurd (h ▸ token_canon a true ha) hb, fun h => ?_⟩
      rcases h with rfl | h
      · exact absurd ha hb
      · exact absurd h.2.1 hb
  · rw [if_neg ha]
    by_cases hb : b.all isToken = true
    · rw [if_pos hb]
      refine ⟨fun h => absurd (h ▸ token_canon b true hb) ha, fun h => ?_⟩
      rcases h with rfl | h
      · exact absurd hb ha
      · exact absurd h.1 ha
    · rw [if_neg hb]
      exact ⟨.inl, fun h => h.resolve_right fun h => ha h.1⟩

instance (a b : Str) : Decidable (SameField a b) := decidable_of_iff _ (canonicalKey_iff a b)

theorem canonicalKey_idem (a : Str) : canonicalKey (canonicalKey a) = canonicalKey a := by
  have hu : ∀ x : UInt8, SameLetter (upperByte x) x := fun x => (upper_iff _ _).1 (by
    have : ∀ n : Fin 256, upperByte (upperByte (UInt8.ofNat n)) = upperByte (UInt8.ofNat n) := by decide +kernel
    have h := this ⟨x.toNat, x.toNat_lt⟩
    simpa only [UInt8.ofNat_toNat] using h)
  have hl : ∀ x : UInt8, SameLetter (lowerByte x) x := fun x => (lower_iff _ _).1 (by
    have : ∀ n : Fin 256, lowerByte (lowerByte (UInt8.ofNat n)) = lowerByte (UInt8.ofNat n) := by decide +kernel
    have h := this ⟨x.toNat, x.toNat_lt⟩
    simpa only [UInt8.ofNat_toNat] using h)
  have hc : ∀ (s : Str) (up : Bool), All2 SameLetter (canonBytes up s) s := by
    intro s
    induction s with
    | nil => intro _; exact .nil
    | cons x s ih =>
      intro up
      refine .cons ?_ (ih _)
      cases up
      · exact hl x
      · exact hu x
  by_cases h : a.all isToken = true
  · have e : canonicalKey a = canonBytes true a := by rw [canonicalKey, if_pos h]
    rw [e, canonicalKey, if_pos (token_canon a true h)]
    exact (canon_iff _ _ true).2 (hc a true)
  · have e : canonicalKey a = a := by rw [canonicalKey, if_neg h]
    rw [e, e]

theorem same_of_key {k key : Str} (h : canonicalKey k = key) : SameField k key := by
  subst h
  exact (canonicalKey_iff _ _).1 (canonicalKey_idem k).symm

theorem key_of_same {k key : Str} (hk : canonicalKey key = key) (h : SameField k key) : canonicalKey k = key :=
  ((canonicalKey_iff _ _).2 h).trans hk

end Gofre.Http
