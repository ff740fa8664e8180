/-!
# Pointwise related lists
-/

namespace Gofre

/-- The two lists have the same length and related elements at each position. -/
inductive All2 {α β : Type} (R : α → β → Prop) : List α → List β → Prop
  | nil : All2 R [] []
  | cons {a b l m} : R a b → All2 R l m → All2 R (a :: l) (b :: m)

namespace All2
variable {α β γ : Type} {R S : α → β → Prop}

theorem length {l : List α} {m : List β} (h : All2 R l m) : l.length = m.length := by
  induction h with
  | nil => rfl
  | cons _ _ ih => simp [ih]

theorem imp {l : List α} {m : List β} (h : All2 R l m) (hi : ∀ a b, a ∈ l → b ∈ m → R a b → S a b) : All2 S l m := by
  induction h with
  | nil => exact .nil
  | cons hr _ ih =>
    exact .cons (hi _ _ (by simp) (by simp) hr) (ih fun a b ha hb => hi a b (by simp [ha]) (by simp [hb]))

theorem append {l l' : List α} {m m' : List β} (h : All2 R l m) (h' : All2 R l' m') : All2 R (l ++ l') (m ++ m') := by
  induction h with
  | nil => exact h'
  | cons hr _ ih => exact .cons hr ih

theorem flip {l : List α} {m : List β} (h : All2 R l m) : All2 (fun b a => R a b) m l := by
  induction h with
  | nil => exact .nil
  | cons hr _ ih => exact .cons hr ih

theorem getElem? {l : List α} {m : List β} (h : All2 R l m) (i : Nat) (a : α) (ha : l[i]? = some a) :
    ∃ b, m[i]? = some b ∧ R a b := by
  induction h generalizing i with
  | nil => simp at ha
  | cons hr _ ih =>
    cases i with
    | zero => simp at ha; subst ha; exact ⟨_, by simp, hr⟩
    | succ i => simp only [List.getElem?_cons_succ] at ha ⊢; exact ih i ha

theorem mem_left {l : List α} {m : List β} (h : All2 R l m) {a : α} (ha : a ∈ l) : ∃ b ∈ m, R a b := by
  induction h with
  | nil => simp at ha
  | cons hr _ ih =>
    rcases List.mem_cons.1 ha with rfl | ha
    · exact ⟨_, by simp, hr⟩
    · obtain ⟨b, hb, h⟩ := ih ha; exact ⟨b, by simp [hb], h⟩

theorem mem_right {l : List α} {m : List β} (h : All2 R l m) {b : β} (hb : b ∈ m) : ∃ a ∈ l, R a b :=
  h.flip.mem_left hb

theorem map_left {f : γ → α} {l : List γ} {m : List β} :
    All2 R (l.map f) m ↔ All2 (fun a b => R (f a) b) l m := by
  constructor
  · intro h
    generalize hl : l.map f = l' at h
    induction h generalizing l with
    | nil =>
      have : l = [] := by simpa using hl
      subst this; exact .nil
    | cons hr _ ih =>
      cases l with
      | nil => simp at hl
      | cons a l => simp at hl; obtain ⟨rfl, rfl⟩ := hl; exact .cons hr (ih rfl)
  · intro h
    induction h with
    | nil => exact .nil
    | cons hr _ ih => exact .cons hr ih

theorem refl_of {R : α → α → Prop} {l : List α} (h : ∀ a ∈ l, R a a) : All2 R l l := by
  induction l with
  | nil => exact .nil
  | cons a l ih => exact .cons (h a (by simp)) (ih fun b hb => h b (by simp [hb]))

theorem trans {δ : Type} {T : β → δ → Prop} {U : α → δ → Prop} {l : List α} {m : List β} {n : List δ}
    (h : All2 R l m) (h' : All2 T m n) (hc : ∀ a b c, a ∈ l → b ∈ m → c ∈ n → R a b → T b c → U a c) : All2 U l n := by
  induction h generalizing n with
  | nil => cases h'; exact .nil
  | cons hr _ ih =>
    cases h' with
    | cons ht h' =>
      exact .cons (hc _ _ _ (by simp) (by simp) (by simp) hr ht)
        (ih h' fun a b c ha hb hcc => hc a b c (by simp [ha]) (by simp [hb]) (by simp [hcc]))

theorem eq_of {l m : List α} (h : All2 (fun a b => a = b) l m) : l = m := by
  induction h with
  | nil => rfl
  | cons hr _ ih => rw [hr, ih]

theorem unique {l : List α} {m m' : List β} (h : All2 R l m) (h' : All2 R l m')
    (hu : ∀ a b b', R a b → R a b' → b = b') : m = m' := by
  induction h generalizing m' with
  | nil => cases h'; rfl
  | cons hr _ ih =>
    cases h' with
    | cons hr' h' => rw [hu _ _ _ hr hr', ih h']

theorem append_inv_left {l l' : List α} {m : List β} (h : All2 R (l ++ l') m) :
    ∃ a b, m = a ++ b ∧ All2 R l a ∧ All2 R l' b := by
  induction l generalizing m with
  | nil => exact ⟨[], m, rfl, .nil, h⟩
  | cons c l ih =>
    cases h with
    | cons hr h =>
      obtain ⟨a, b, rfl, h1, h2⟩ := ih h
      exact ⟨_ :: a, b, rfl, .cons hr h1, h2⟩

end All2
end Gofre
