import Verif.Proofs.PriorityKinds
import Verif.Spec.Endless

/-! # Which kinds make the priority computation diverge -/

namespace Gofre.Path
open Gofre.Spec

/-- The loop of `getSplitIndex` ends at the first iteration that meets its condition. -/
theorem splitLoop_at (m : Nat) : ∀ (r f n k : Nat), r < f → (n / m ^ r = 0 ∨ n / m ^ r % 10 = 6) →
    (∀ j, j < r → n / m ^ j ≠ 0 ∧ n / m ^ j % 10 ≠ 6) → splitLoop m f n k = some (k + r) := by
  intro r
  induction r with
  | zero =>
    intro f n k hf h _
    cases f with
    | zero => omega
    | succ f =>
      simp only [Nat.pow_zero, Nat.div_one] at h
      rcases h with h | h <;> simp [splitLoop, h]
  | succ r ih =>
    intro f n k hf h hj
    cases f with
    | zero => omega
    | succ f =>
      have h0 := hj 0 (by omega)
      simp only [Nat.pow_zero, Nat.div_one] at h0
      have e : ∀ j, n / m / m ^ j = n / m ^ (j + 1) := by
        intro j; rw [Nat.div_div_eq_div_mul, Nat.pow_succ, Nat.mul_comm]
      have := ih f (n / m) (k + 1) (by omega) (by rw [e]; exact h) (by
        intro j hj'; rw [e]; exact hj (j + 1) (by omega))
      simp only [splitLoop, h0.1, h0.2, if_false, this]
      congr 1; omega

theorem decR_drop (ds : List Nat) (hb : ∀ c ∈ ds, 1 ≤ c ∧ c ≤ 6) (j : Nat) :
    decR ds / 10 ^ j = decR (ds.drop j) := by
  induction j generalizing ds with
  | zero => simp
  | succ j ih =>
    cases ds with
    | nil => simp [decR]
    | cons c ds =>
      have hc := hb c (by simp)
      have : decR (c :: ds) / 10 = decR ds := by simp only [decR]; omega
      rw [Nat.pow_succ, Nat.mul_comm, ← Nat.div_div_eq_div_mul, this, ih ds fun c hc => hb c (by simp [hc])]
      simp

/-- The condition of the loop in terms of the shape. -/
theorem digits_stop (ds : List Nat) (hb : ∀ c ∈ ds, 1 ≤ c ∧ c ≤ 6) (shape : List Bool)
    (hs : shape = ds.map (· == 6)) (d k : Nat) :
    (decR ds / (10 ^ d) ^ k = 0 ∨ decR ds / (10 ^ d) ^ k % 10 = 6) ↔ stops shape d k = true := by
  rw [← Nat.pow_mul, decR_drop ds hb, Nat.mul_comm d k]
  subst hs
  by_cases h : ds.length ≤ k * d
  · simp [stops, h, List.drop_eq_nil_of_le h, decR]
  · have hlt : k * d < ds.length := by omega
    rw [List.drop_eq_getElem_cons hlt]
    have hc := hb _ (List.getElem_mem hlt)
    have h1 : decR (ds[k * d] :: ds.drop (k * d + 1)) ≠ 0 := by simp only [decR]; omega
    have h2 : decR (ds[k * d] :: ds.drop (k * d + 1)) % 10 = ds[k * d] := by simp only [decR]; omega
    have e : stops (ds.map (· == 6)) d k = true ↔ ds[k * d] = 6 := by
      simp [stops, h, List.getD_eq_getElem?_getD, hlt]
    rw [e, h2]
    exact ⟨fun h3 => h3.resolve_left h1, .inr⟩

theorem hop_spec (shape : List Bool) (d : Nat) (hd : 1 ≤ d) :
    stops shape d (hop shape d) = true ∧ hop shape d ≤ shape.length ∧ ∀ j, j < hop shape d → stops shape d j = false := by
  have hlast : stops shape d shape.length = true := by
    have : shape.length ≤ shape.length * d := Nat.le_mul_of_pos_right _ hd
    simp [stops, this]
  unfold hop
  cases hf : (List.range (shape.length + 1)).find? (stops shape d) with
  | none =>
    have := List.find?_eq_none.1 hf shape.length (by simp)
    exact absurd hlast this
  | some i =>
    obtain ⟨h1, h2, h3⟩ := List.find?_range_eq_some.1 hf
    simp only [List.mem_range] at h2
    exact ⟨h1, by simpa using (by omega : i ≤ shape.length), fun j hj => by simpa using h3 j hj⟩

theorem splitIndex_hop (ds : List Nat) (hb : ∀ c ∈ ds, 1 ≤ c ∧ c ≤ 6) (shape : List Bool)
    (hs : shape = ds.map (· == 6)) (hl : ds.length ≤ 19) (d : Nat) (h1 : 1 ≤ d) (h2 : d ≤ 18) :
    splitIndex (decR ds) d = some ((d + hop shape d : Nat) : Int) := by
  obtain ⟨a, b, c⟩ := hop_spec shape d h1
  have hlen : shape.length = ds.length := by simp [hs]
  have := splitLoop_at (10 ^ d) (hop shape d) 21 (decR ds) 0 (by omega)
    ((digits_stop ds hb shape hs d _).2 a) (by
      intro j hj
      have hn := c j hj
      have := mt (digits_stop ds hb shape hs d j).1 (by simp [hn])
      exact ⟨fun h => this (.inl h), fun h => this (.inr h)⟩)
  simp only [splitIndex, div10_pow h1 h2, this]
  simp; omega

theorem splitIndex_far (prio : Nat) (h0 : prio ≠ 0) (h6 : prio % 10 ≠ 6) (d : Nat) (h : 19 ≤ d) :
    splitIndex prio d = none := by
  have e : decimalDivider (d : Int) = 1 := by
    have : ¬ ((1 : Int) ≤ d ∧ (d : Int) ≤ 18) := by omega
    simp [decimalDivider, this]
  simp [splitIndex, e, splitLoop_one h0 h6]

theorem splitIndex_six (prio : Nat) (h6 : prio % 10 = 6) (d : Int) : splitIndex prio d = some d := by
  have : prio ≠ 0 := by omega
  simp [splitIndex, splitLoop, this, h6]

/-- Cutting a number and putting it together again changes nothing. -/
theorem rejoin (prio m : Nat) (h : prio < 10 ^ 19) :
    w64 (w64 (addSixes (0 : Int).toNat (prio / m) * m) + prio % m) = prio := by
  have h1 : prio / m * m + prio % m = prio := Nat.div_add_mod' _ _
  have h2 : w64 (prio / m * m) = prio / m * m := w64_of_lt (by omega)
  simp only [Int.toNat_zero, addSixes]
  rw [h2, h1, w64_of_lt h]

/-- With no digit to spare the loop over the `**` only moves on. -/
theorem sixesLoop_zero (rem : Int) (prio : Nat) (hp : prio < 10 ^ 19) : ∀ (left : Nat) (d si : Int),
    splitIndex prio d = some si → 0 < left → sixesLoop 0 rem (left + 1) prio d = sixesLoop 0 rem left prio si := by
  intro left d si h hl
  have hl' : ¬ left = 0 := by omega
  simp only [sixesLoop, h, hl', if_false]
  rw [rejoin prio _ hp]
  simp

theorem sixesLoop_never (rem : Int) (prio : Nat) (hp : prio < 10 ^ 19) (h6 : prio % 10 = 6) :
    ∀ (left : Nat) (d : Int), sixesLoop 0 rem left prio d ≠ none := by
  intro left
  induction left with
  | zero => intro d; simp [sixesLoop]
  | succ left ih =>
    intro d
    by_cases hl : left = 0
    · subst hl; simp [sixesLoop, splitIndex_six prio h6]
    · rw [sixesLoop_zero rem prio hp left d d (splitIndex_six prio h6 d) (by omega)]
      exact ih d

theorem walk_mono (shape : List Bool) (i j : Nat) (h : i ≤ j) : walk shape i ≤ walk shape j := by
  induction j with
  | zero => have : i = 0 := by omega
            simp [this]
  | succ j ih =>
    by_cases e : i = j + 1
    · simp [e]
    · have := ih (by omega)
      simp only [walk]; omega

theorem walk_pos (shape : List Bool) (i : Nat) : 1 ≤ walk shape i := walk_mono shape 0 i (by omega)

theorem sixesLoop_walk (rem : Int) (ds : List Nat) (hb : ∀ c ∈ ds, 1 ≤ c ∧ c ≤ 6) (shape : List Bool)
    (hs : shape = ds.map (· == 6)) (hl : ds.length ≤ 19) (hne : ds ≠ []) (h6 : decR ds % 10 ≠ 6) :
    ∀ (left i : Nat), sixesLoop 0 rem (left + 1) (decR ds) (walk shape i) = none ↔ 19 ≤ walk shape (i + left) := by
  have hp : decR ds < 10 ^ 19 :=
    Nat.lt_of_lt_of_le (decR_lt ds fun c hc => by have := hb c hc; omega) (Nat.pow_le_pow_right (by omega) hl)
  have h0 : decR ds ≠ 0 := by
    cases ds with
    | nil => exact absurd rfl hne
    | cons c ds => have := hb c (by simp); simp only [decR]; omega
  intro left
  induction left with
  | zero =>
    intro i
    by_cases h : 19 ≤ walk shape i
    · simp [sixesLoop, splitIndex_far _ h0 h6 _ h, h]
    · simp [sixesLoop, splitIndex_hop ds hb shape hs hl _ (walk_pos shape i) (by omega), h]
  | succ left ih =>
    intro i
    by_cases h : 19 ≤ walk shape i
    · have := walk_mono shape i (i + (left + 1)) (by omega)
      have h' : 19 ≤ walk shape (i + (left + 1)) := by omega
      simp [sixesLoop, splitIndex_far _ h0 h6 _ h, h']
    · rw [sixesLoop_zero rem _ hp (left + 1) _ _
        (splitIndex_hop ds hb shape hs hl _ (walk_pos shape i) (by omega)) (by omega)]
      have := ih (i + 1)
      simp only [walk] at this
      rw [this]
      rw [show i + 1 + left = i + (left + 1) by omega]

/-- The priority computation of at most 19 kinds diverges exactly on the endless shapes. -/
theorem computePriority_hangs_iff (ks : List MT) (hu : ∀ k ∈ ks, k ≠ .unknown) (hl : ks.length ≤ 19)
    (hadj : ¬ ∃ a b, ks = a ++ .multiple :: .multiple :: b) :
    computePriority ks = none ↔ EndlessShape (ks.reverse.map (· == .multiple)) := by
  have hcount : (ks.reverse.map (· == MT.multiple)).countP id = ks.countP (· = .multiple) := by
    rw [List.countP_map, List.countP_reverse]
    congr 1
  simp only [EndlessShape, hcount, List.length_map, List.length_reverse]
  by_cases hfar : 19 < ks.length + ks.countP (· = .multiple)
  · have hcp : 1 ≤ ks.countP (· = .multiple) := by omega
    have hc0 : ks.countP (· = .multiple) ≠ 0 := by omega
    simp only [computePriority]
    rw [if_neg hc0]
    have hspare : (19 : Int) - (ks.length : Int) = ((19 - ks.length : Nat) : Int) := by omega
    have ha : (19 - (ks.length : Int)).tdiv (ks.countP (· = .multiple)) = 0 := by
      rw [hspare]
      exact congrArg Nat.cast (Nat.div_eq_of_lt (show 19 - ks.length < ks.countP (· = .multiple) by omega))
    rw [ha, kindsNumber_eq ks hl]
    have hb : ∀ c ∈ (ks.map MT.code).reverse, 1 ≤ c ∧ c ≤ 6 := by
      intro c hc
      simp only [List.mem_reverse, List.mem_map] at hc
      obtain ⟨k, hk, rfl⟩ := hc
      exact code_bounds k (hu k hk)
    have hs : ks.reverse.map (· == MT.multiple) = (ks.map MT.code).reverse.map (· == 6) := by
      rw [← List.map_reverse, List.map_map]
      apply List.map_congr_left
      intro k _
      cases k <;> decide
    have hlen : (ks.map MT.code).reverse.length = ks.length := by simp
    have hpos : ks ≠ [] := by rintro rfl; simp at hfar
    have hne : (ks.map MT.code).reverse ≠ [] := by simpa using hpos
    generalize (ks.map MT.code).reverse = ds at *
    generalize (19 - (ks.length : Int)).tmod (ks.countP (· = .multiple)) = rem
    by_cases h6 : decR ds % 10 = 6
    · have hlt : decR ds < 10 ^ 19 :=
        Nat.lt_of_lt_of_le (decR_lt ds fun c hc => by have := hb c hc; omega) (Nat.pow_le_pow_right (by omega) (by omega))
      constructor
      · intro h; exact absurd h (sixesLoop_never rem _ hlt h6 _ _)
      · rintro ⟨_, h, _⟩
        exfalso
        rw [hs] at h
        cases ds with
        | nil => simp at h
        | cons c ds =>
          have := hb c (by simp)
          simp at h
          simp only [decR] at h6
          omega
    · have hw := sixesLoop_walk rem ds hb _ hs (by omega) hne h6 (ks.countP (· = .multiple) - 1) 0
      rw [show ks.countP (· = .multiple) - 1 + 1 = ks.countP (· = .multiple) by omega] at hw
      simp only [walk, Nat.zero_add] at hw
      have hh : (ks.reverse.map (· == MT.multiple)).head? = some false := by
        rw [hs]
        cases ds with
        | nil => exact absurd rfl hne
        | cons c ds =>
          have := hb c (by simp)
          simp
          simp only [decR] at h6
          omega
      have hcast : ((1 : Nat) : Int) = 1 := rfl
      rw [hcast] at hw
      rw [hw]
      exact ⟨fun h => ⟨hfar, hh, hcp, h⟩, fun h => h.2.2.2⟩
  · constructor
    · intro h
      exfalso
      obtain ⟨r, hr⟩ := computePriority_ends ks hu hl hadj (by
        by_cases h16 : ks.length ≤ 16
        · exact .inl h16
        · exact .inr (by omega))
      rw [hr] at h; cases h
    · rintro ⟨h, _⟩; exact absurd h hfar

/-- A single `**` never makes it diverge, whatever the number of kinds. -/
theorem computePriority_one_star (ks : List MT) (h : ks.countP (· = .multiple) ≤ 1) : computePriority ks ≠ none := by
  simp only [computePriority]
  split
  · simp
  · rename_i h0
    have h1 : ks.countP (· = .multiple) = 1 := by omega
    rw [h1]
    have hk : kindsNumber ks < 2 ^ 64 := by
      unfold kindsNumber
      have gen : ∀ (l : List MT) (p : Nat), p < 2 ^ 64 → l.foldl (fun p k => w64 (p * 10 + k.code)) p < 2 ^ 64 := by
        intro l
        induction l with
        | nil => intro p hp; exact hp
        | cons k l ih => intro p _; exact ih _ (Nat.mod_lt _ (by decide))
      exact gen ks 0 (by decide)
    obtain ⟨r, hr, _⟩ := splitLoop_ends (decimalDivider 1) 20 21 (kindsNumber ks) 0
      (Nat.lt_of_lt_of_le hk (by decide)) (by omega)
    simp [sixesLoop, splitIndex, hr]

end Gofre.Path
