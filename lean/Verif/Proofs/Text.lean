import Verif.Model.Text

namespace Gofre

theorem stripOne_some {sps : List Str} {s r : Str} (h : stripOne sps s = some r) :
    ∃ sp ∈ sps, s = sp ++ r := by
  unfold stripOne at h
  obtain ⟨sp, hm, hs⟩ := List.exists_of_findSome?_eq_some h
  split at hs
  · rename_i hp
    simp only [Option.some.injEq] at hs
    obtain ⟨t, ht⟩ := List.isPrefixOf_iff_prefix.1 hp
    refine ⟨sp, hm, ?_⟩
    rw [← hs, ← ht]; simp
  · cases hs

theorem stripOne_none {sps : List Str} {s : Str} (h : stripOne sps s = none) :
    ∀ sp ∈ sps, ¬ sp <+: s := by
  intro sp hm hp
  unfold stripOne at h
  rw [List.findSome?_eq_none_iff] at h
  have := h sp hm
  simp [List.isPrefixOf_iff_prefix.2 hp] at this

theorem stripOne_eq_none {sps : List Str} {s : Str} (h : ∀ sp ∈ sps, ¬ sp <+: s) : stripOne sps s = none := by
  unfold stripOne
  rw [List.findSome?_eq_none_iff]
  intro sp hm
  rw [if_neg]
  intro hp
  exact h sp hm (List.isPrefixOf_iff_prefix.1 hp)

theorem stripAll_suffix (sps : List Str) (n : Nat) (s : Str) : ∃ pre, s = pre ++ stripAll sps n s := by
  induction n generalizing s with
  | zero => exact ⟨[], rfl⟩
  | succ n ih =>
    simp only [stripAll]
    split
    · rename_i s' hs
      obtain ⟨sp, _, rfl⟩ := stripOne_some hs
      obtain ⟨pre, hpre⟩ := ih s'
      exact ⟨sp ++ pre, by rw [List.append_assoc, ← hpre]⟩
    · exact ⟨[], rfl⟩

theorem stripAll_none (sps : List Str) (hne : ∀ sp ∈ sps, sp ≠ []) (n : Nat) (s : Str) (hn : s.length ≤ n) :
    ∀ sp ∈ sps, ¬ sp <+: stripAll sps n s := by
  induction n generalizing s with
  | zero =>
    have : s = [] := List.eq_nil_of_length_eq_zero (by omega)
    subst this
    intro sp hm hp
    exact hne sp hm (List.prefix_nil.1 hp)
  | succ n ih =>
    simp only [stripAll]
    split
    · rename_i s' hs
      obtain ⟨sp, hm, rfl⟩ := stripOne_some hs
      apply ih
      have : 0 < sp.length := by
        cases sp with
        | nil => exact absurd rfl (hne _ hm)
        | cons a l => simp
      simp at hn; omega
    · rename_i hs
      exact stripOne_none hs

theorem stripAll_id (sps : List Str) (n : Nat) (s : Str) (h : ∀ sp ∈ sps, ¬ sp <+: s) : stripAll sps n s = s := by
  cases n with
  | zero => rfl
  | succ n => simp [stripAll, stripOne_eq_none h]

theorem spaces_ne_nil : ∀ sp ∈ spaces, sp ≠ [] := by decide

theorem spacesRev_ne_nil : ∀ sp ∈ spaces.map List.reverse, sp ≠ [] := by decide

theorem trimRight_prefix (s : Str) : ∃ suf, s = trimRight s ++ suf := by
  obtain ⟨pre, h⟩ := stripAll_suffix (spaces.map List.reverse) s.length s.reverse
  refine ⟨pre.reverse, ?_⟩
  have := congrArg List.reverse h
  simpa [trimRight] using this

theorem trimLeft_suffix (s : Str) : ∃ pre, s = pre ++ trimLeft s := stripAll_suffix spaces s.length s

theorem trimLeft_no_space (s : Str) : ∀ sp ∈ spaces, ¬ sp <+: trimLeft s :=
  stripAll_none spaces spaces_ne_nil _ _ (Nat.le_refl _)

theorem trimRight_no_space (s : Str) : ∀ sp ∈ spaces.map List.reverse, ¬ sp <+: (trimRight s).reverse := by
  unfold trimRight
  rw [List.reverse_reverse]
  exact stripAll_none _ spacesRev_ne_nil _ _ (by simp)

/-- A text is trimmed when no space is at either end. -/
def Trimmed (s : Str) : Prop :=
  (∀ sp ∈ spaces, ¬ sp <+: s) ∧ ∀ sp ∈ spaces.map List.reverse, ¬ sp <+: s.reverse

theorem trimSpace_trimmed (s : Str) : Trimmed (trimSpace s) := by
  refine ⟨?_, trimRight_no_space _⟩
  intro sp hm hp
  obtain ⟨suf, hs⟩ := trimRight_prefix (trimLeft s)
  apply trimLeft_no_space s sp hm
  rw [hs]
  exact hp.trans (List.prefix_append _ _)

theorem trimSpace_of_trimmed {s : Str} (h : Trimmed s) : trimSpace s = s := by
  unfold trimSpace trimLeft
  rw [stripAll_id _ _ _ h.1]
  unfold trimRight
  rw [stripAll_id _ _ _ h.2, List.reverse_reverse]

theorem trimSpace_idem (s : Str) : trimSpace (trimSpace s) = trimSpace s :=
  trimSpace_of_trimmed (trimSpace_trimmed s)

theorem mem_of_mem_trimSpace {s : Str} {b : UInt8} (h : b ∈ trimSpace s) : b ∈ s := by
  obtain ⟨suf, hs⟩ := trimRight_prefix (trimLeft s)
  obtain ⟨pre, hp⟩ := trimLeft_suffix s
  rw [hp, hs]
  simp only [List.mem_append]
  exact .inr (.inl h)

end Gofre
