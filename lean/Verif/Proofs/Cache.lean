import Verif.Model.Cache

namespace Gofre
namespace Map
variable {α : Type}

theorem get?_set_same (m : Map α) (k : Str) (v : α) : get? (set m k v) k = some v := by
  induction m with
  | nil => simp [set, get?]
  | cons p m ih =>
    rcases p with ⟨k', v'⟩
    simp only [set]
    split
    · simp [get?, List.lookup]
    · rename_i hne
      have : (k == k') = false := by simpa using fun h => hne h.symm
      simpa [get?, List.lookup, this] using ih

theorem get?_set_other (m : Map α) (k k₂ : Str) (v : α) (h : k₂ ≠ k) :
    get? (set m k v) k₂ = get? m k₂ := by
  induction m with
  | nil => simp [set, get?, h]
  | cons p m ih =>
    rcases p with ⟨k', v'⟩
    simp only [set]
    split
    · rename_i he
      subst he
      have : (k₂ == k') = false := by simpa using h
      simp [get?, List.lookup, this]
    · by_cases h2 : k₂ = k'
      · subst h2; simp [get?, List.lookup]
      · have : (k₂ == k') = false := by simpa using h2
        simpa [get?, List.lookup, this] using ih

theorem get?_erase_same (m : Map α) (k : Str) : get? (erase m k) k = none := by
  induction m with
  | nil => simp [erase, get?]
  | cons p m ih =>
    rcases p with ⟨k', v'⟩
    simp only [erase, List.filter]
    split
    · rename_i hne
      have hne : ¬ k' = k := by simpa using hne
      have : (k == k') = false := by simpa using fun h => hne h.symm
      simpa [get?, List.lookup, this, erase] using ih
    · simpa [erase] using ih

theorem get?_erase_other (m : Map α) (k k₂ : Str) (h : k₂ ≠ k) :
    get? (erase m k) k₂ = get? m k₂ := by
  induction m with
  | nil => simp [erase, get?]
  | cons p m ih =>
    rcases p with ⟨k', v'⟩
    simp only [erase, List.filter]
    split
    · by_cases h2 : k₂ = k'
      · subst h2; simp [get?, List.lookup]
      · have : (k₂ == k') = false := by simpa using h2
        simpa [get?, List.lookup, this, erase] using ih
    · rename_i he
      have he : k' = k := by simpa using he
      subst he
      have : (k₂ == k') = false := by simpa using h
      simpa [get?, List.lookup, this, erase] using ih

end Map

namespace Cache

/-- The key an operation acts on. -/
def Op.key : Op → Str
  | .add _ k _ => k
  | .remove k => k

theorem get?_run (ops : List Op) (c : Cache) (k : Str) (e : Int) :
    Map.get? (run c ops) k = some e ↔
      (∃ pre t d suf, ops = pre ++ Op.add t k d :: suf ∧ (∀ o ∈ suf, o.key ≠ k) ∧ e = t + d) ∨
      ((∀ o ∈ ops, o.key ≠ k) ∧ Map.get? c k = some e) := by
  induction ops generalizing c with
  | nil => simp [run]
  | cons o ops ih =>
    rw [show run c (o :: ops) = run (step c o) ops from rfl, ih]
    constructor
    · rintro (⟨pre, t, d, suf, h1, h2, h3⟩ | ⟨h1, h2⟩)
      · exact .inl ⟨o :: pre, t, d, suf, by simp [h1], h2, h3⟩
      · cases o with
        | add t k' d =>
          by_cases hk : k = k'
          · subst hk
            simp only [step, add, Map.get?_set_same, Option.some.injEq] at h2
            exact .inl ⟨[], t, d, ops, rfl, h1, h2.symm⟩
          · simp only [step, add, Map.get?_set_other _ _ _ _ hk] at h2
            refine .inr ⟨?_, h2⟩
            intro o ho
            rcases List.mem_cons.1 ho with rfl | ho
            · exact fun h => hk h.symm
            · exact h1 o ho
        | remove k' =>
          by_cases hk : k = k'
          · subst hk; simp [step, remove, Map.get?_erase_same] at h2
          · simp only [step, remove, Map.get?_erase_other _ _ _ hk] at h2
            refine .inr ⟨?_, h2⟩
            intro o ho
            rcases List.mem_cons.1 ho with rfl | ho
            · exact fun h => hk h.symm
            · exact h1 o ho
    · rintro (⟨pre, t, d, suf, h1, h2, h3⟩ | ⟨h1, h2⟩)
      · cases pre with
        | nil =>
          simp only [List.nil_append, List.cons.injEq] at h1
          obtain ⟨rfl, rfl⟩ := h1
          exact .inr ⟨h2, by simp [step, add, Map.get?_set_same, h3]⟩
        | cons p pre =>
          simp only [List.cons_append, List.cons.injEq] at h1
          exact .inl ⟨pre, t, d, suf, h1.2, h2, h3⟩
      · refine .inr ⟨fun o' ho' => h1 o' (List.mem_cons_of_mem _ ho'), ?_⟩
        have hk : o.key ≠ k := h1 o (List.mem_cons_self ..)
        cases o with
        | add t k' d => rw [← h2]; exact Map.get?_set_other _ _ _ _ (fun h => hk h.symm)
        | remove k' => rw [← h2]; exact Map.get?_erase_other _ _ _ (fun h => hk h.symm)

end Cache
end Gofre
