import Verif.Model.Pattern

/-! # Arithmetic of the priority computation -/

namespace Gofre.Path

/-! ### The inner loop -/

theorem splitLoop_one {n : Nat} (hn : n ≠ 0) (h6 : n % 10 ≠ 6) (f k : Nat) : splitLoop 1 f n k = none := by
  induction f generalizing k with
  | zero => rfl
  | succ f ih => simp [splitLoop, hn, h6, ih]

/-- A divider of at least 10 brings the loop to an end. -/
theorem splitLoop_ends (m t : Nat) : ∀ (f n k : Nat), n < m ^ t → t < f →
    ∃ r, splitLoop m f n k = some r ∧ k ≤ r ∧ r ≤ k + t := by
  induction t with
  | zero =>
    intro f n k hn hf
    cases f with
    | zero => omega
    | succ f =>
      have : n = 0 := by simpa using hn
      exact ⟨k, by simp [splitLoop, this], by omega, by omega⟩
  | succ t ih =>
    intro f n k hn hf
    cases f with
    | zero => omega
    | succ f =>
      by_cases h0 : n = 0
      · exact ⟨k, by simp [splitLoop, h0], by omega, by omega⟩
      · by_cases h6 : n % 10 = 6
        · exact ⟨k, by simp [splitLoop, h6], by omega, by omega⟩
        · obtain ⟨r, h1, h2, h3⟩ := ih f (n / m) (k + 1) (by
            rw [Nat.pow_succ] at hn
            exact Nat.div_lt_of_lt_mul (by rw [Nat.mul_comm]; exact hn)) (by omega)
          exact ⟨r, by simp [splitLoop, h0, h6, h1], by omega, by omega⟩

theorem splitLoop_ge_one {m f n k r : Nat} (hn : n ≠ 0) (h6 : n % 10 ≠ 6) (h : splitLoop m f n k = some r) :
    k + 1 ≤ r := by
  cases f with
  | zero => simp [splitLoop] at h
  | succ f =>
    simp only [splitLoop, hn, h6, if_false] at h
    clear hn h6
    revert h
    generalize n / m = n', k + 1 = k'
    intro h
    induction f generalizing n' k' with
    | zero => simp [splitLoop] at h
    | succ f ih =>
      simp only [splitLoop] at h
      split at h
      · simp at h; omega
      · split at h
        · simp at h; omega
        · have := ih _ _ h; omega

/-- Without enough fuel for the model, there is never enough. -/
theorem splitLoop_hangs_forever (nr : Nat) (d : Int) (h : nr < 10 ^ 20) (hs : splitIndex nr d = none) (f : Nat) :
    splitLoop (decimalDivider d) f nr 0 = none := by
  simp only [splitIndex, Option.map_eq_none_iff] at hs
  by_cases hd : 1 ≤ d ∧ d ≤ 18
  · exfalso
    have h10 : 10 ≤ decimalDivider d := by
      simp only [decimalDivider, hd, and_self, if_true]
      calc 10 = 10 ^ 1 := rfl
        _ ≤ 10 ^ d.toNat := Nat.pow_le_pow_right (by omega) (by omega)
    obtain ⟨r, hr, _⟩ := splitLoop_ends (decimalDivider d) 20 21 nr 0
      (Nat.lt_of_lt_of_le h (Nat.pow_le_pow_left h10 20)) (by omega)
    rw [hr] at hs; cases hs
  · have e : decimalDivider d = 1 := by simp [decimalDivider, hd]
    rw [e] at hs ⊢
    by_cases h0 : nr = 0
    · simp [splitLoop, h0] at hs
    · by_cases h6 : nr % 10 = 6
      · simp [splitLoop, h6] at hs
      · exact splitLoop_one h0 h6 f 0

/-! ### Digits -/

/-- The number whose decimal digits, last first, are the codes. -/
def decR : List Nat → Nat
  | [] => 0
  | c :: l => c + 10 * decR l

theorem decR_append (a b : List Nat) : decR (a ++ b) = decR a + 10 ^ a.length * decR b := by
  induction a with
  | nil => simp [decR]
  | cons c a ih =>
    simp only [List.cons_append, decR, ih, List.length_cons, Nat.pow_succ]
    rw [Nat.mul_add, ← Nat.mul_assoc, Nat.mul_comm 10 (10 ^ a.length)]
    omega

theorem decR_lt (a : List Nat) (h : ∀ c ∈ a, c ≤ 9) : decR a < 10 ^ a.length := by
  induction a with
  | nil => simp [decR]
  | cons c a ih =>
    have h1 := h c (by simp)
    have h2 := ih fun c hc => h c (by simp [hc])
    simp only [decR, List.length_cons, Nat.pow_succ]
    omega

theorem w64_of_lt {n : Nat} (h : n < 10 ^ 19) : w64 n = n :=
  Nat.mod_eq_of_lt (Nat.lt_of_lt_of_le h (by decide))

/-- Up to 19 segments nothing is lost in the number spelled by the kinds. -/
theorem kindsNumber_eq (ks : List MT) (h : ks.length ≤ 19) : kindsNumber ks = decR (ks.map MT.code).reverse := by
  have gen : ∀ (ks : List MT) (acc : List Nat), (∀ c ∈ acc, c ≤ 9) → acc.length + ks.length ≤ 19 →
      ks.foldl (fun p k => w64 (p * 10 + k.code)) (decR acc) = decR ((ks.map MT.code).reverse ++ acc) := by
    intro ks
    induction ks with
    | nil => intro acc _ _; simp
    | cons k ks ih =>
      intro acc ha hl
      have hk : k.code ≤ 6 := by cases k <;> simp [MT.code]
      have hlt := decR_lt (k.code :: acc) (by
        intro c hc
        rcases List.mem_cons.1 hc with rfl | hc
        · omega
        · exact ha c hc)
      simp only [List.length_cons] at hl hlt
      have hb : decR (k.code :: acc) < 10 ^ 19 :=
        Nat.lt_of_lt_of_le hlt (Nat.pow_le_pow_right (by omega) (by omega))
      have e : w64 (decR acc * 10 + k.code) = decR (k.code :: acc) := by
        have : decR acc * 10 + k.code = decR (k.code :: acc) := by simp only [decR]; omega
        rw [this, w64_of_lt hb]
      simp only [List.foldl_cons, e]
      rw [ih (k.code :: acc) (by
        intro c hc
        rcases List.mem_cons.1 hc with rfl | hc
        · omega
        · exact ha c hc) (by simp; omega)]
      simp
  have := gen ks [] (by simp) (by simpa using h)
  simpa [kindsNumber, decR] using this

/-! ### Appending sixes -/

theorem addSixes_lt (a : Nat) : ∀ n, (n + 1) * 10 ^ a ≤ 10 ^ 19 → addSixes a n + 1 ≤ (n + 1) * 10 ^ a := by
  induction a with
  | zero => intro n _; simp [addSixes]
  | succ a ih =>
    intro n h
    have e : (n + 1) * 10 ^ (a + 1) = ((n + 1) * 10) * 10 ^ a := by
      rw [Nat.pow_succ, Nat.mul_comm (10 ^ a) 10, Nat.mul_assoc]
    have h1 : n * 10 + 6 + 1 ≤ (n + 1) * 10 := by omega
    have h2 : (n * 10 + 6 + 1) * 10 ^ a ≤ (n + 1) * 10 * 10 ^ a := Nat.mul_le_mul_right _ h1
    have h3 : n * 10 + 6 + 1 ≤ (n * 10 + 6 + 1) * 10 ^ a := Nat.le_mul_of_pos_right _ (Nat.pow_pos (by omega))
    have hw : w64 (n * 10 + 6) = n * 10 + 6 := w64_of_lt (by omega)
    simp only [addSixes, hw]
    have := ih (n * 10 + 6) (by omega)
    omega

theorem addSixes_eq (a : Nat) : ∀ l : List Nat, (∀ c ∈ l, c ≤ 9) → l.length + a ≤ 19 →
    addSixes a (decR l) = decR (List.replicate a 6 ++ l) := by
  induction a with
  | zero => intro l _ _; simp [addSixes]
  | succ a ih =>
    intro l h hl
    have h6 : ∀ c ∈ 6 :: l, c ≤ 9 := by
      intro c hc
      rcases List.mem_cons.1 hc with rfl | hc
      · omega
      · exact h c hc
    have hlt := decR_lt (6 :: l) h6
    have hb : decR (6 :: l) < 10 ^ 19 :=
      Nat.lt_of_lt_of_le hlt (Nat.pow_le_pow_right (by omega) (by simp; omega))
    have e : w64 (decR l * 10 + 6) = decR (6 :: l) := by
      have : decR l * 10 + 6 = decR (6 :: l) := by simp only [decR]; omega
      rw [this, w64_of_lt hb]
    simp only [addSixes, e]
    rw [ih (6 :: l) h6 (by simp; omega)]
    have : List.replicate (a + 1) 6 = List.replicate a 6 ++ [6] := by
      rw [← List.replicate_succ']
    rw [this]; simp

/-! ### One step of the outer loop -/

theorem div10_pow {s : Nat} (h1 : 1 ≤ s) (h2 : s ≤ 18) : decimalDivider (s : Int) = 10 ^ s := by
  have : (1 : Int) ≤ s ∧ (s : Int) ≤ 18 := by omega
  simp [decimalDivider, this]

/-- The new priority keeps its last digit and gains at most the digits appended. -/
theorem step_bound (prio D s a : Nat) (hp : prio < 10 ^ D) (hs : 1 ≤ s) (hD : max D s + a ≤ 19) :
    let new := w64 (w64 (addSixes a (prio / 10 ^ s) * 10 ^ s) + prio % 10 ^ s)
    new < 10 ^ (max D s + a) ∧ new % 10 = prio % 10 := by
  have hpos : 0 < 10 ^ s := Nat.pow_pos (by omega)
  have hn : (prio / 10 ^ s + 1) * 10 ^ s ≤ 10 ^ max D s := by
    by_cases hle : s ≤ D
    · have e : max D s = D := by omega
      have : 10 ^ D = 10 ^ (D - s) * 10 ^ s := by rw [← Nat.pow_add]; congr 1; omega
      rw [e, this]
      refine Nat.mul_le_mul_right _ ?_
      have : prio / 10 ^ s < 10 ^ (D - s) := Nat.div_lt_of_lt_mul (by rw [Nat.mul_comm, ← this]; exact hp)
      omega
    · have e : max D s = s := by omega
      have : prio / 10 ^ s = 0 := Nat.div_eq_of_lt (Nat.lt_of_lt_of_le hp (Nat.pow_le_pow_right (by omega) (by omega)))
      rw [e, this]; omega
  have hn2 : (prio / 10 ^ s + 1) * 10 ^ a * 10 ^ s ≤ 10 ^ (max D s + a) := by
    rw [Nat.pow_add, Nat.mul_assoc, Nat.mul_comm (10 ^ a), ← Nat.mul_assoc]
    exact Nat.mul_le_mul_right _ hn
  have h19 : 10 ^ (max D s + a) ≤ 10 ^ 19 := Nat.pow_le_pow_right (by omega) hD
  have hA := addSixes_lt a (prio / 10 ^ s) (by
    have : (prio / 10 ^ s + 1) * 10 ^ a ≤ (prio / 10 ^ s + 1) * 10 ^ a * 10 ^ s := Nat.le_mul_of_pos_right _ hpos
    omega)
  have hA2 : (addSixes a (prio / 10 ^ s) + 1) * 10 ^ s ≤ 10 ^ (max D s + a) :=
    Nat.le_trans (Nat.mul_le_mul_right _ hA) hn2
  have hmod : prio % 10 ^ s < 10 ^ s := Nat.mod_lt _ hpos
  rw [Nat.add_mul, Nat.one_mul] at hA2
  have w1 : w64 (addSixes a (prio / 10 ^ s) * 10 ^ s) = addSixes a (prio / 10 ^ s) * 10 ^ s := w64_of_lt (by omega)
  have w2 : w64 (addSixes a (prio / 10 ^ s) * 10 ^ s + prio % 10 ^ s) =
      addSixes a (prio / 10 ^ s) * 10 ^ s + prio % 10 ^ s := w64_of_lt (by omega)
  intro new
  have en : new = addSixes a (prio / 10 ^ s) * 10 ^ s + prio % 10 ^ s := by
    show w64 (w64 _ + _) = _
    rw [w1, w2]
  rw [en]
  refine ⟨by omega, ?_⟩
  have hdvd : 10 ∣ 10 ^ s := by
    have : 10 ^ s = 10 ^ (s - 1) * 10 := by rw [← Nat.pow_succ]; congr 1; omega
    exact ⟨10 ^ (s - 1), by rw [this, Nat.mul_comm]⟩
  rw [Nat.add_mod, Nat.mod_mod_of_dvd _ hdvd]
  have : addSixes a (prio / 10 ^ s) * 10 ^ s % 10 = 0 :=
    Nat.mod_eq_zero_of_dvd (Nat.dvd_trans hdvd (Nat.dvd_mul_left _ _))
  rw [this]; omega

/-! ### When the last segment is `**` -/

theorem sixesLoop_six (a rem : Nat) : ∀ (left prio d D : Nat), prio < 10 ^ D → prio % 10 = 6 → 1 ≤ d → d ≤ D →
    D + left * a + rem ≤ 19 → ∃ r, sixesLoop a rem left prio d = some r := by
  intro left
  induction left with
  | zero => intro prio d D _ _ _ _ _; exact ⟨prio, rfl⟩
  | succ left ih =>
    intro prio d D hp h6 hd hdD hb
    have hsi : splitIndex prio d = some (d : Int) := by
      have : prio ≠ 0 := by omega
      simp [splitIndex, splitLoop, this, h6]
    have e : (left + 1) * a = left * a + a := by rw [Nat.add_mul, Nat.one_mul]
    simp only [sixesLoop, hsi]
    by_cases hl : left = 0
    · subst hl
      exact ⟨_, rfl⟩
    · have hcast : (if left = 0 then (a : Int) + rem else a).toNat = a := by simp [hl]
      by_cases ha : a = 0
      · -- nothing is appended, so the number stays the same
        have hcast2 : (if left = 0 then (a : Int) + rem else a) = 0 := by simp [hl, ha]
        rw [hcast2]
        have hwp : w64 prio = prio := w64_of_lt (Nat.lt_of_lt_of_le hp (Nat.pow_le_pow_right (by omega) (by omega)))
        have hm : w64 (w64 (addSixes (0 : Int).toNat (prio / decimalDivider ↑d) * decimalDivider ↑d) + prio % decimalDivider ↑d) = prio := by
          have h1 : prio / decimalDivider ↑d * decimalDivider ↑d + prio % decimalDivider ↑d = prio := Nat.div_add_mod' _ _
          have h2 : w64 (prio / decimalDivider ↑d * decimalDivider ↑d) = prio / decimalDivider ↑d * decimalDivider ↑d := by
            apply Nat.mod_eq_of_lt
            have : prio < 2 ^ 64 := by
              have := Nat.lt_of_lt_of_le hp (Nat.pow_le_pow_right (n := 10) (by omega) (show D ≤ 19 by omega))
              exact Nat.lt_of_lt_of_le this (by decide)
            omega
          simp only [Int.toNat_zero, addSixes]
          rw [h2, h1, hwp]
        rw [hm, Int.add_zero]
        exact ih prio d D hp h6 hd hdD (by rw [ha] at hb ⊢; omega)
      · have hla : 1 * a ≤ left * a := Nat.mul_le_mul_right _ (by omega)
        have hd18 : d ≤ 18 := by omega
        rw [div10_pow hd hd18, hcast]
        obtain ⟨b1, b2⟩ := step_bound prio D d a hp hd (by omega)
        have hcast2 : ((d : Int) + if left = 0 then (a : Int) + rem else a) = ((d + a : Nat) : Int) := by simp [hl]
        rw [hcast2]
        have e2 : max D d + a = D + a := by omega
        rw [e2] at b1
        exact ih _ (d + a) (D + a) b1 (by rw [b2]; exact h6) (by omega) (by omega) (by omega)

/-! ### When the last segment is not `**` -/

/-- Upper bounds for the running divisor exponent `d` and digit count `D` stay in range whatever
number of steps the inner loop takes. -/
def safe (a : Nat) : Nat → Nat → Nat → Bool
  | 0, _, _ => true
  | left + 1, d, D =>
    decide (d ≤ 18) && decide (D ≤ 19) &&
      (List.range ((D + d - 1) / d)).all fun j => safe a left (d + (j + 1) + a) (max D (d + (j + 1)) + a)

theorem sixesLoop_safe (a rem : Nat) : ∀ (left prio d D : Nat), safe a left d D = true → prio < 10 ^ D → 1 ≤ d →
    prio % 10 ≠ 6 → prio % 10 ≠ 0 → ∃ r, sixesLoop a rem left prio d = some r := by
  intro left
  induction left with
  | zero => intro prio d D _ _ _ _ _; exact ⟨prio, rfl⟩
  | succ left ih =>
    intro prio d D hsafe hp hd h6 h0
    simp only [safe, Bool.and_eq_true, decide_eq_true_eq, List.all_eq_true, List.mem_range] at hsafe
    obtain ⟨⟨hd18, hD19⟩, hall⟩ := hsafe
    have hpn : prio ≠ 0 := by omega
    have hlt : prio < (10 ^ d) ^ ((D + d - 1) / d) := by
      rw [← Nat.pow_mul]
      refine Nat.lt_of_lt_of_le hp (Nat.pow_le_pow_right (by omega) ?_)
      have h1 := Nat.div_add_mod (D + d - 1) d
      have h2 := Nat.mod_lt (D + d - 1) (show 0 < d by omega)
      omega
    have hle : (D + d - 1) / d < 21 := by
      have : (D + d - 1) / d ≤ (D + d - 1) / 1 := Nat.div_le_div_left hd (by omega)
      have h1 : (D + d - 1) / d ≤ D := by
        apply Nat.le_of_lt_succ
        apply Nat.div_lt_of_lt_mul
        have : d * (D + 1) = d * D + d := by rw [Nat.mul_add, Nat.mul_one]
        have : D ≤ d * D := Nat.le_mul_of_pos_left _ (by omega)
        show D + d - 1 < d * (D + 1)
        omega
      omega
    obtain ⟨j, hj, _, hj2⟩ := splitLoop_ends (10 ^ d) _ 21 prio 0 hlt hle
    have hj1 := splitLoop_ge_one hpn h6 hj
    have hsi : splitIndex prio d = some ((d + j : Nat) : Int) := by
      simp only [splitIndex, div10_pow hd hd18, hj, Option.map_some]
      congr 1; omega
    simp only [sixesLoop, hsi]
    cases left with
    | zero => exact ⟨_, rfl⟩
    | succ left =>
      have hnext := hall (j - 1) (by omega)
      have ej : j - 1 + 1 = j := by omega
      rw [ej] at hnext
      have hnext' := hnext
      simp only [safe, Bool.and_eq_true, decide_eq_true_eq] at hnext'
      obtain ⟨⟨hd18', hD19'⟩, _⟩ := hnext'
      rw [if_neg (by omega), div10_pow (by omega) (by omega), Int.toNat_natCast]
      obtain ⟨b1, b2⟩ := step_bound prio D (d + j) a hp (by omega) hD19'
      have := ih _ (d + j + a) (max D (d + j) + a) hnext b1 (by omega) (by rw [b2]; exact h6) (by rw [b2]; exact h0)
      obtain ⟨r, hr⟩ := this
      exact ⟨r, by rw [← hr]; congr 1⟩

end Gofre.Path
