import Verif.Model.Events

/-! # The ring of events -/

namespace Gofre.Events

/-- Events put into the ring so far. -/
def State.stored (s : State) : Nat := s.writeIndex + (if s.storing then 1 else 0)

/-- Each place holds the youngest of the events that belong there. -/
def Ring (cap : Nat) (s : State) : Prop :=
  ∀ i, i < cap → (s.list i = 0 ∧ s.stored ≤ i) ∨ (1 ≤ s.list i ∧ s.list i ≤ s.stored ∧ s.stored < s.list i + cap ∧ (s.list i - 1) % cap = i)

/-- A step of a connection leaves ring and producer alone. -/
theorem step_same {cap : Nat} {s : State} {t : Step} (h1 : t ≠ .store) (h2 : t ≠ .publish) :
    (step cap s t).list = s.list ∧ (step cap s t).stored = s.stored ∧ (step cap s t).writeIndex = s.writeIndex := by
  unfold step
  split
  · exact ⟨rfl, rfl, rfl⟩
  · cases t with
    | store => exact absurd rfl h1
    | publish => exact absurd rfl h2
    | connect c id => dsimp only; split <;> exact ⟨rfl, rfl, rfl⟩
    | load c => dsimp only; split <;> exact ⟨rfl, rfl, rfl⟩
    | compare c =>
      dsimp only
      split
      · split <;> exact ⟨rfl, rfl, rfl⟩
      · exact ⟨rfl, rfl, rfl⟩
    | fetch c =>
      dsimp only
      split
      · split <;> exact ⟨rfl, rfl, rfl⟩
      · exact ⟨rfl, rfl, rfl⟩
    | advance c => dsimp only; split <;> exact ⟨rfl, rfl, rfl⟩

theorem ring_step {cap : Nat} {s : State} (hr : Ring cap s) (t : Step) : Ring cap (step cap s t) := by
  by_cases h1 : t = .store
  · subst h1
    unfold step
    split
    · exact hr
    · dsimp only
      split
      · exact hr
      · split
        · exact hr
        · rename_i hs hc
          intro i hi
          have hst : s.stored = s.writeIndex := by simp [State.stored, hs]
          have hst' : ∀ l, ({ s with storing := true, list := l } : State).stored = s.writeIndex + 1 := fun l => rfl
          rw [hst']
          dsimp only
          by_cases he : i = s.writeIndex % cap
          · rw [if_pos he]
            exact .inr ⟨by omega, by omega, by omega, by rw [he]; simp⟩
          · rw [if_neg he]
            rcases hr i hi with ⟨h1, h2⟩ | ⟨h1, h2, h3, h4⟩
            · left
              refine ⟨h1, ?_⟩
              rw [hst] at h2
              have : s.writeIndex % cap = s.writeIndex := Nat.mod_eq_of_lt (by omega)
              omega
            · right
              rw [hst] at h2 h3
              refine ⟨h1, by omega, ?_, h4⟩
              refine Decidable.byContradiction fun hlt => he ?_
              have : s.writeIndex = (s.list i - 1) + cap := by omega
              rw [this, Nat.add_mod_right, h4]
  · by_cases h2 : t = .publish
    · subst h2
      unfold step
      split
      · exact hr
      · dsimp only
        split
        · rename_i hs
          intro i hi
          have := hr i hi
          simpa [State.stored, hs] using this
        · exact hr
    · obtain ⟨a, b, _⟩ := step_same (cap := cap) (s := s) h1 h2
      intro i hi
      rw [a, b]
      exact hr i hi

theorem ring_new (cap : Nat) : Ring cap {} := fun i _ => .inl ⟨rfl, by simp [State.stored]⟩

theorem ring_run {cap : Nat} {s : State} (hr : Ring cap s) (ts : List Step) : Ring cap (run cap s ts) := by
  unfold run
  induction ts generalizing s with
  | nil => exact hr
  | cons t ts ih => exact ih (ring_step hr t)

/-- What is found under an index below the write index. -/
theorem Ring.get {cap : Nat} {s : State} (hr : Ring cap s) (hc : 0 < cap) {n : Nat} (hn : n < s.writeIndex) :
    n + 1 ≤ s.list (n % cap) ∧ s.list (n % cap) % cap = (n + 1) % cap ∧ (s.stored ≤ n + cap → s.list (n % cap) = n + 1) := by
  have hst : s.writeIndex ≤ s.stored := by simp [State.stored]
  have hmod := Nat.mod_lt n hc
  have hdm := Nat.mod_add_div n cap
  rcases hr (n % cap) hmod with ⟨_, h2⟩ | ⟨h1, h2, h3, h4⟩
  · exfalso
    have := Nat.mod_le n cap
    omega
  · generalize s.list (n % cap) = k at *
    have hk := Nat.mod_add_div (k - 1) cap
    rw [h4] at hk
    have hle : n / cap ≤ (k - 1) / cap := by
      refine Decidable.byContradiction fun hlt => ?_
      have : (k - 1) / cap + 1 ≤ n / cap := by omega
      have := Nat.mul_le_mul_left cap this
      rw [Nat.mul_add, Nat.mul_one] at this
      omega
    have hmul := Nat.mul_le_mul_left cap hle
    refine ⟨by omega, ?_, fun hl => ?_⟩
    · rw [show k = (k - 1) + 1 by omega, Nat.add_mod, h4, Nat.add_mod n 1]
    · have : (k - 1) / cap ≤ n / cap := by
        refine Decidable.byContradiction fun hlt => ?_
        have : n / cap + 1 ≤ (k - 1) / cap := by omega
        have := Nat.mul_le_mul_left cap this
        rw [Nat.mul_add, Nat.mul_one] at this
        omega
      have := Nat.mul_le_mul_left cap this
      omega

theorem tmod_nat (n cap : Nat) : ((n : Int).tmod cap) = ((n % cap : Nat) : Int) := by
  rw [← Int.ofNat_tmod]

theorem atoi_itoa {n : Nat} (h : n ≤ 9223372036854775807) : atoi (itoa n) = some (n : Int) := by
  have hp := parseDigits_itoa (n := n) (by omega)
  have hr := itoa_range n
  unfold atoi
  cases hi : itoa n with
  | nil => rw [hi] at hp; simp [parseDigits] at hp
  | cons c l =>
    rw [hi] at hp hr
    have hc := hr c (by simp)
    have h1 : c ≠ 45 := by rintro rfl; exact absurd hc (by decide)
    have h2 : c ≠ 43 := by rintro rfl; exact absurd hc (by decide)
    have hsg : signed (c :: l) = some (n : Int) := by
      unfold signed
      split
      · rename_i heq; simp at heq; exact absurd heq.1 h1
      · rename_i heq; simp at heq; exact absurd heq.1 h2
      · rw [hp]
    rw [hsg]
    exact if_pos (by omega)

end Gofre.Events
