import Verif.Props.Auth
import Verif.Props.Events
import Verif.Spec.Number

/-!
# Which `Last-Event-Id` headers end the process of the example server

Property C105.
-/

namespace Gofre.Props
open Gofre.Events Gofre.Spec

theorem signed_iff (s : Str) (n : Int) : signed s = some n ↔ IntText s n := by
  have hd : ∀ {d : Str} {c : UInt8} {l : Str}, (∀ x ∈ d, 48 ≤ x.toNat ∧ x.toNat ≤ 57) → d = c :: l → 48 ≤ c.toNat ∧ c.toNat ≤ 57 :=
    fun h e => h _ (e ▸ List.mem_cons_self)
  unfold signed
  split
  · rename_i ds
    constructor
    · intro h
      split at h
      · rename_i m hm
        obtain ⟨h1, h2, h3⟩ := (parseDigits_iff _ _).1 hm
        cases h
        exact ⟨ds, h1, h2, .inr (.inr ⟨rfl, by rw [h3]⟩)⟩
      · cases h
    · rintro ⟨d, h1, h2, ⟨e, _⟩ | ⟨e, _⟩ | ⟨e, hn⟩⟩
      · exact absurd (hd h2 e.symm).1 (by decide)
      · cases e
      · cases e
        rw [(parseDigits_iff _ _).2 ⟨h1, h2, rfl⟩, hn]
  · rename_i ds
    constructor
    · intro h
      split at h
      · rename_i m hm
        obtain ⟨h1, h2, h3⟩ := (parseDigits_iff _ _).1 hm
        cases h
        exact ⟨ds, h1, h2, .inr (.inl ⟨rfl, by rw [h3]⟩)⟩
      · cases h
    · rintro ⟨d, h1, h2, ⟨e, _⟩ | ⟨e, hn⟩ | ⟨e, _⟩⟩
      · exact absurd (hd h2 e.symm).1 (by decide)
      · cases e
        rw [(parseDigits_iff _ _).2 ⟨h1, h2, rfl⟩, hn]
      · cases e
  · rename_i h45 h43
    constructor
    · intro h
      split at h
      · rename_i m hm
        obtain ⟨h1, h2, h3⟩ := (parseDigits_iff _ _).1 hm
        cases h
        exact ⟨s, h1, h2, .inl ⟨rfl, by rw [h3]⟩⟩
      · cases h
    · rintro ⟨d, h1, h2, ⟨e, hn⟩ | ⟨e, _⟩ | ⟨e, _⟩⟩
      · subst e
        rw [(parseDigits_iff _ _).2 ⟨h1, h2, rfl⟩, hn]
      · exact absurd e (h43 d)
      · exact absurd e (h45 d)

/-- C105, the header: it counts exactly when it is a whole number of 64 bits in decimal. -/
theorem c105_header (s : Str) (n : Int) : atoi s = some n ↔ IntText s n ∧ -2 ^ 63 ≤ n ∧ n < 2 ^ 63 := by
  unfold atoi
  rw [← signed_iff]
  split
  · rename_i m hm
    rw [hm, Option.some.injEq]
    split
    · rename_i hr
      rw [Option.some.injEq]
      constructor
      · rintro rfl; exact ⟨rfl, by omega, by omega⟩
      · exact fun h => h.1
    · rename_i hr
      constructor
      · intro h; cases h
      · rintro ⟨rfl, h1, h2⟩; exact absurd ⟨by omega, by omega⟩ hr
  · rename_i hm
    simp [hm]

/-- C105, exactly, for the next look at the stream by a client that connects while the stream is in order: the process ends when the header is a
negative number of 64 bits that is no multiple of the size of the ring. -/
theorem c105_exact (cap c : Nat) (id : Str) (s : State) (hup : s.crashed = false) (hpc : s.pc c = .out) (hr : 0 ≤ s.readIndex) :
    (run cap s [.connect c id, .load c, .compare c, .fetch c]).crashed = true ↔
      ∃ n, IntText id n ∧ -2 ^ 63 ≤ n ∧ n < 0 ∧ ¬ (cap : Int) ∣ n := by
  have key : ∀ r : Int, (run cap { s with readIndex := r } [.load c, .compare c, .fetch c]).crashed = true ↔ ¬ (s.writeIndex : Int) ≤ r ∧ r.tmod cap < 0 := by
    intro r
    simp only [run, List.foldl_cons, List.foldl_nil]
    by_cases h1 : (s.writeIndex : Int) ≤ r
    · simp [step, State.goto, hup, hpc, h1]
    · by_cases h2 : r.tmod cap < 0
      · simp [step, State.goto, hup, hpc, h1, h2]
      · simp [step, State.goto, hup, hpc, h1, h2]
  have hneg : ∀ r : Int, r.tmod cap < 0 ↔ r < 0 ∧ ¬ (cap : Int) ∣ r := by
    intro r
    constructor
    · intro h
      refine ⟨?_, fun hd => ?_⟩
      · apply Classical.byContradiction
        intro hr
        have := Int.tmod_nonneg (cap : Int) (show 0 ≤ r by omega)
        omega
      · rw [Int.tmod_eq_zero_of_dvd hd] at h
        omega
    · rintro ⟨h1, h2⟩
      have h3 : r.tmod cap ≤ 0 := by
        have := Int.tmod_nonneg (cap : Int) (show 0 ≤ -r by omega)
        rw [Int.neg_tmod] at this
        omega
      have h4 : r.tmod cap ≠ 0 := fun h => h2 (Int.dvd_of_tmod_eq_zero h)
      omega
  cases ha : atoi id with
  | some n =>
    have e : run cap s [.connect c id, .load c, .compare c, .fetch c] = run cap { s with readIndex := n } [.load c, .compare c, .fetch c] := by
      show run cap (step cap s (.connect c id)) _ = _
      simp [step, hup, ha]
    rw [e, key, hneg]
    obtain ⟨h1, h2, h3⟩ := (c105_header id n).1 ha
    constructor
    · rintro ⟨_, h4, h5⟩; exact ⟨n, h1, h2, h4, h5⟩
    · rintro ⟨m, h4, h5, h6, h7⟩
      have := (c105_header id m).2 ⟨h4, h5, by omega⟩
      rw [ha, Option.some.injEq] at this
      subst this
      exact ⟨by omega, h6, h7⟩
  | none =>
    have e : run cap s [.connect c id, .load c, .compare c, .fetch c] = run cap { s with readIndex := s.readIndex } [.load c, .compare c, .fetch c] := by
      show run cap (step cap s (.connect c id)) _ = _
      simp [step, hup, ha]
    rw [e, key, hneg]
    constructor
    · rintro ⟨_, h4, _⟩; omega
    · rintro ⟨m, h4, h5, h6, h7⟩
      rw [(c105_header id m).2 ⟨h4, h5, by omega⟩] at ha
      cases ha

example : IntText b!"-7" (-7) ∧ ¬ ((10 : Nat) : Int) ∣ -7 ∧ (run 10 {} [.connect 0 b!"-7", .load 0, .compare 0, .fetch 0]).crashed = true ∧
    (run 10 {} [.connect 0 b!"-70", .load 0, .compare 0, .fetch 0]).crashed = false :=
  ⟨⟨b!"7", by decide, by decide, .inr (.inr ⟨rfl, by decide⟩)⟩, by decide, by decide, by decide⟩

end Gofre.Props
