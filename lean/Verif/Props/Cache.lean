import Verif.Proofs.Cache

/-! # C38: the in-memory cache is a keyed expiry map -/

namespace Gofre.Props
open Gofre.Cache

/-- C38.  After any history, `Contains(k)` at time `now` holds iff the last call about `k` was
an `Add` and `now` is before its time plus its duration. -/
theorem c38_contains_iff (ops : List Op) (k : Str) (now : Int) :
    contains (run empty ops) now k = true ↔
      ∃ pre t d suf, ops = pre ++ Op.add t k d :: suf ∧
        (∀ t' d', Op.add t' k d' ∉ suf) ∧ Op.remove k ∉ suf ∧ now < t + d := by
  have key : ∀ suf : List Op, (∀ o ∈ suf, o.key ≠ k) ↔
      ((∀ t' d', Op.add t' k d' ∉ suf) ∧ Op.remove k ∉ suf) := by
    intro suf
    constructor
    · intro h
      exact ⟨fun t' d' hm => h _ hm rfl, fun hm => h _ hm rfl⟩
    · rintro ⟨h1, h2⟩ o ho hk
      cases o with
      | add t k' d => exact h1 t d (by simpa [← hk, Op.key] using ho)
      | remove k' => exact h2 (by simpa [← hk, Op.key] using ho)
  unfold contains
  constructor
  · intro h
    split at h
    · rename_i e he
      rcases (get?_run ops empty k e).1 he with ⟨pre, t, d, suf, h1, h2, h3⟩ | ⟨_, h2⟩
      · obtain ⟨h4, h5⟩ := (key suf).1 h2
        exact ⟨pre, t, d, suf, h1, h4, h5, by simpa [h3] using h⟩
      · simp [empty, Map.get?] at h2
    · cases h
  · rintro ⟨pre, t, d, suf, h1, h4, h5, h6⟩
    have := (get?_run ops empty k (t + d)).2
      (.inl ⟨pre, t, d, suf, h1, (key suf).2 ⟨h4, h5⟩, rfl⟩)
    simp [this, h6]

example : contains (run empty [.add 0 b!"k" 10, .add 5 b!"j" 1, .remove b!"j"]) 9 b!"k" = true ∧
    contains (run empty [.add 0 b!"k" 10, .add 5 b!"j" 1, .remove b!"j"]) 5 b!"j" = false ∧
    contains (run empty [.add 0 b!"k" 10]) 10 b!"k" = false := by decide

end Gofre.Props
