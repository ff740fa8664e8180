import Verif.Model.Sort

/-! # Go's stable sort returns the elements in order -/

namespace Gofre.Sort
variable {α : Type} {less : α → α → Bool}

theorem sinkLeft_perm (y : α) : ∀ (l : List α), (sinkLeft less y l).Perm (y :: l) := by
  intro l
  induction l with
  | nil => exact .refl _
  | cons z l ih =>
    simp only [sinkLeft]
    split
    · exact (List.Perm.cons z ih).trans (List.Perm.swap y z l)
    · exact .refl _

theorem insertionSort_perm (l : List α) : (insertionSort less l).Perm l := by
  unfold insertionSort
  have gen : ∀ (l acc : List α), (l.foldl (fun acc y => sinkLeft less y acc) acc).Perm (l ++ acc) := by
    intro l
    induction l with
    | nil => intro acc; exact .refl _
    | cons y l ih =>
      intro acc
      rw [List.foldl_cons]
      refine (ih _).trans ?_
      refine (List.Perm.append_left l (sinkLeft_perm y acc)).trans ?_
      exact List.perm_middle
  exact (List.reverse_perm _).trans (by simpa using gen l [])

/-- What the comparison has to satisfy: it is "less" or "less or equal" of a total order on the
elements (with ties). -/
structure Compares (less : α → α → Bool) (le : α → α → Prop) : Prop where
  trans : ∀ {a b c}, le a b → le b c → le a c
  yes : ∀ {a b}, less a b = true → le a b
  no : ∀ {a b}, less a b = false → le b a

variable {le : α → α → Prop}

theorem insertionSort_sorted (hc : Compares less le) (l : List α) : (insertionSort less l).Pairwise le := by
  unfold insertionSort
  rw [List.pairwise_reverse]
  have sink : ∀ (y : α) (acc : List α), acc.Pairwise (fun a b => le b a) → (sinkLeft less y acc).Pairwise (fun a b => le b a) := by
    intro y acc
    induction acc with
    | nil => intro _; simp [sinkLeft]
    | cons z zs ih =>
      intro h
      obtain ⟨h1, h2⟩ := List.pairwise_cons.1 h
      rw [sinkLeft]
      split
      · rename_i hy
        refine List.pairwise_cons.2 ⟨fun w hw => ?_, ih h2⟩
        rcases List.mem_cons.1 ((sinkLeft_perm y zs).mem_iff.1 hw) with rfl | hw
        · exact hc.yes hy
        · exact h1 w hw
      · rename_i hy
        have hzy : le z y := hc.no (by simpa using hy)
        refine List.pairwise_cons.2 ⟨fun w hw => ?_, h⟩
        rcases List.mem_cons.1 hw with rfl | hw
        · exact hzy
        · exact hc.trans (h1 w hw) hzy
  have gen : ∀ (l acc : List α), acc.Pairwise (fun a b => le b a) → (l.foldl (fun acc y => sinkLeft less y acc) acc).Pairwise (fun a b => le b a) := by
    intro l
    induction l with
    | nil => intro acc h; exact h
    | cons y l ih => intro acc h; exact ih _ (sink y acc h)
  exact gen l [] List.Pairwise.nil

/-- The place found: the step before it went up, the one at it did not. -/
theorem search_spec (up : Nat → Bool) : ∀ (fuel i j : Nat), i ≤ j → j - i ≤ fuel →
    i ≤ search up fuel i j ∧ search up fuel i j ≤ j ∧
    (search up fuel i j = i ∨ up (search up fuel i j - 1) = true) ∧ (search up fuel i j = j ∨ up (search up fuel i j) = false) := by
  intro fuel
  induction fuel with
  | zero => intro i j h1 h2; unfold search; exact ⟨Nat.le_refl _, h1, .inl rfl, .inl (by omega)⟩
  | succ fuel ih =>
    intro i j h1 h2
    simp only [search]
    split
    · rename_i hij
      split
      · rename_i hu
        obtain ⟨g1, g2, g3, g4⟩ := ih ((i + j) / 2 + 1) j (by omega) (by omega)
        refine ⟨by omega, g2, .inr ?_, g4⟩
        rcases g3 with g3 | g3
        · rw [g3]; simpa using hu
        · exact g3
      · rename_i hu
        obtain ⟨g1, g2, g3, g4⟩ := ih i ((i + j) / 2) (by omega) (by omega)
        refine ⟨g1, by omega, g3, .inr ?_⟩
        rcases g4 with g4 | g4
        · rw [g4]; simpa using hu
        · exact g4
    · exact ⟨by omega, by omega, .inl rfl, .inl (by omega)⟩

theorem symMerge_perm (fuel : Nat) (l r : List α) : (symMerge less fuel l r).Perm (l ++ r) := by
  induction fuel generalizing l r with
  | zero => exact .refl _
  | succ fuel ih =>
    unfold symMerge
    split
    · exact .refl _
    · simp
    · rename_i x r _
      dsimp only
      refine List.perm_middle.trans ?_
      rw [List.take_append_drop]
      exact .refl _
    · dsimp only
      refine List.perm_middle.trans ?_
      rw [List.take_append_drop]
      exact (List.perm_append_singleton _ _).symm
    · dsimp only
      refine (List.Perm.append (ih _ _) (ih _ _)).trans ?_
      generalize search _ _ _ _ = s
      generalize l.length + r.length = b
      generalize b / 2 + l.length - s - l.length = t
      calc (l.take s ++ r.take t) ++ (l.drop s ++ r.drop t)
        _ = l.take s ++ ((r.take t ++ l.drop s) ++ r.drop t) := by simp
        List.Perm _ (l.take s ++ ((l.drop s ++ r.take t) ++ r.drop t)) := .append_left _ (.append_right _ List.perm_append_comm)
        _ = (l.take s ++ l.drop s) ++ (r.take t ++ r.drop t) := by simp only [List.append_assoc]
        _ = l ++ r := by rw [List.take_append_drop, List.take_append_drop]

/-- Elements before a place in a sorted list are below those from it on. -/
theorem sorted_cut {l : List α} (h : l.Pairwise le) (i : Nat) : ∀ x ∈ l.take i, ∀ y ∈ l.drop i, le x y := by
  have := List.take_append_drop i l ▸ h
  rw [List.pairwise_append] at this
  exact this.2.2

theorem le_of_last (hc : Compares less le) {l : List α} (h : l.Pairwise le) {i : Nat} {z : α} (hz : ∀ x, i ≠ 0 → l[i - 1]? = some x → le x z) (hi : i ≤ l.length) :
    ∀ x ∈ l.take i, le x z := by
  intro x hx
  obtain ⟨k, hk, rfl⟩ := List.mem_iff_getElem.1 hx
  rw [List.length_take] at hk
  rw [List.getElem_take]
  have hlast := hz (l[i - 1]'(by omega)) (by omega) (List.getElem?_eq_getElem _)
  by_cases hki : k = i - 1
  · subst hki; exact hlast
  · exact hc.trans (List.pairwise_iff_getElem.1 h k (i - 1) (by omega) (by omega) (by omega)) hlast

theorem le_of_first (hc : Compares less le) {l : List α} (h : l.Pairwise le) {i : Nat} {z : α} (hz : ∀ x, l[i]? = some x → le z x) :
    ∀ x ∈ l.drop i, le z x := by
  intro x hx
  obtain ⟨k, hk, rfl⟩ := List.mem_iff_getElem.1 hx
  rw [List.length_drop] at hk
  rw [List.getElem_drop]
  have hfirst := hz (l[i]'(by omega)) (List.getElem?_eq_getElem _)
  by_cases hk0 : k = 0
  · subst hk0; exact hfirst
  · exact hc.trans hfirst (List.pairwise_iff_getElem.1 h i (i + k) (by omega) (by omega) (by omega))

theorem insert_sorted {l : List α} (h : l.Pairwise le) {i : Nat} {z : α} (h1 : ∀ x ∈ l.take i, le x z) (h2 : ∀ x ∈ l.drop i, le z x) :
    (l.take i ++ z :: l.drop i).Pairwise le := by
  rw [List.pairwise_append, List.pairwise_cons]
  refine ⟨h.sublist (List.take_sublist _ _), ⟨h2, h.sublist (List.drop_sublist _ _)⟩, ?_⟩
  intro x hx y hy
  rcases List.mem_cons.1 hy with rfl | hy
  · exact h1 x hx
  · exact sorted_cut h i x hx y hy

theorem symMerge_sorted (hc : Compares less le) (fuel : Nat) (l r : List α) (hf : l.length + r.length ≤ fuel) (hl : l.Pairwise le) (hr : r.Pairwise le) :
    (symMerge less fuel l r).Pairwise le := by
  induction fuel generalizing l r with
  | zero =>
    have h1 : l = [] := List.length_eq_zero_iff.1 (by omega)
    have h2 : r = [] := List.length_eq_zero_iff.1 (by omega)
    subst h1 h2
    simp [symMerge]
  | succ fuel ih =>
    unfold symMerge
    split
    · exact hr
    · exact hl
    · rename_i x _
      dsimp only
      obtain ⟨-, g2, g3, g4⟩ := search_spec (fun h => match r[h]? with | some y => less y x | none => false) r.length 0 r.length (by omega) (by omega)
      generalize hs : search (fun h => match r[h]? with | some y => less y x | none => false) r.length 0 r.length = i at *
      refine insert_sorted hr (le_of_last hc hr ?_ g2) (le_of_first hc hr ?_)
      · intro y h0 hy
        rcases g3 with g3 | g3
        · exact absurd g3 h0
        · rw [hy] at g3; exact hc.yes g3
      · intro y hy
        rcases g4 with g4 | g4
        · rw [g4, List.getElem?_eq_none (Nat.le_refl _)] at hy; cases hy
        · rw [hy] at g4; exact hc.no g4
    · rename_i y _ _
      dsimp only
      obtain ⟨-, g2, g3, g4⟩ := search_spec (fun h => match l[h]? with | some x => !less y x | none => false) l.length 0 l.length (by omega) (by omega)
      generalize hs : search (fun h => match l[h]? with | some x => !less y x | none => false) l.length 0 l.length = i at *
      refine insert_sorted hl (le_of_last hc hl ?_ g2) (le_of_first hc hl ?_)
      · intro x h0 hx
        rcases g3 with g3 | g3
        · exact absurd g3 h0
        · rw [hx] at g3; exact hc.no (by simpa using g3)
      · intro x hx
        rcases g4 with g4 | g4
        · rw [g4, List.getElem?_eq_none (Nat.le_refl _)] at hx; cases hx
        · rw [hx] at g4; exact hc.yes (by simpa using g4)
    · rename_i hl0 hl1 hr0 hr1
      have hl2 : 2 ≤ l.length := by
        match l, hl0, hl1 with
        | [], h, _ => exact absurd rfl h
        | [x], _, h => exact absurd rfl (h x)
        | _ :: _ :: _, _, _ => simp
      have hr2 : 2 ≤ r.length := by
        match r, hr0, hr1 with
        | [], h, _ => exact absurd rfl h
        | [x], _, h => exact absurd rfl (h x)
        | _ :: _ :: _, _, _ => simp
      dsimp only
      generalize hup : (fun c =>
        match (l ++ r)[(l.length + r.length) / 2 + l.length - 1 - c]?, (l ++ r)[c]? with
        | some y, some x => !less y x
        | _, _ => false) = up
      generalize hfst : (if l.length > (l.length + r.length) / 2 then (l.length + r.length) / 2 + l.length - (l.length + r.length) else 0) = first
      generalize hlst : (if l.length > (l.length + r.length) / 2 then (l.length + r.length) / 2 else l.length) = last
      have hfl : first ≤ last := by rw [← hfst, ← hlst]; split <;> omega
      obtain ⟨g1, g2, g3, g4⟩ := search_spec up (last - first) first last hfl (Nat.le_refl _)
      generalize search up (last - first) first last = s at *
      generalize ht : (l.length + r.length) / 2 + l.length - s - l.length = t
      have hbounds : s ≤ l.length ∧ s ≤ (l.length + r.length) / 2 ∧ t ≤ r.length ∧ t = (l.length + r.length) / 2 - s := by
        rw [← hfst] at g1
        rw [← hlst] at g2
        split at g1 <;> split at g2 <;> omega
      obtain ⟨b1, b2, b3, b4⟩ := hbounds
      -- the last of `l.take s` against the first of `r.drop t`
      have A : ∀ x ∈ l.take s, ∀ y ∈ r.drop t, le x y := by
        rcases g3 with g3 | g3
        · rw [← hfst] at g3
          split at g3
          · have : t = r.length := by omega
            rw [this]; simp
          · subst g3; simp
        · intro x hx y hy
          by_cases h0 : s = 0
          · subst h0; simp at hx
          refine le_of_last hc hl (z := y) ?_ b1 x hx
          intro x' _ hx'
          refine le_of_first hc hr (z := x') ?_ y hy
          intro y' hy'
          subst hup
          have e1 : (l ++ r)[s - 1]? = some x' := by rw [List.getElem?_append_left (by omega)]; exact hx'
          have e2 : (l ++ r)[(l.length + r.length) / 2 + l.length - 1 - (s - 1)]? = some y' := by
            rw [List.getElem?_append_right (by omega), ← hy']
            congr 1; omega
          simp only [e1, e2] at g3
          exact hc.no (by simpa using g3)
      have B : ∀ y ∈ r.take t, ∀ x ∈ l.drop s, le y x := by
        rcases g4 with g4 | g4
        · rw [← hlst] at g4
          split at g4
          · have : t = 0 := by omega
            rw [this]; simp
          · rw [g4]; simp
        · intro y hy x hx
          by_cases h0 : t = 0
          · rw [h0] at hy; simp at hy
          refine le_of_last hc hr (z := x) ?_ b3 y hy
          intro y' _ hy'
          refine le_of_first hc hl (z := y') ?_ x hx
          intro x' hx'
          subst hup
          have hsl : s < l.length := by
            obtain ⟨h, _⟩ := List.getElem?_eq_some_iff.1 hx'
            exact h
          have e1 : (l ++ r)[s]? = some x' := by rw [List.getElem?_append_left hsl]; exact hx'
          have e2 : (l ++ r)[(l.length + r.length) / 2 + l.length - 1 - s]? = some y' := by
            rw [List.getElem?_append_right (by omega), ← hy']
            congr 1; omega
          simp only [e1, e2] at g4
          exact hc.yes (by simpa using g4)
      rw [List.pairwise_append]
      refine ⟨ih _ _ (by simp only [List.length_take]; omega) (hl.sublist (List.take_sublist _ _)) (hr.sublist (List.take_sublist _ _)),
        ih _ _ (by simp only [List.length_drop]; omega) (hl.sublist (List.drop_sublist _ _)) (hr.sublist (List.drop_sublist _ _)), ?_⟩
      intro a ha b hb
      rw [(symMerge_perm _ _ _).mem_iff, List.mem_append] at ha hb
      rcases ha with ha | ha <;> rcases hb with hb | hb
      · exact sorted_cut hl s a ha b hb
      · exact A a ha b hb
      · exact B a ha b hb
      · exact sorted_cut hr t a ha b hb

/-- Consecutive blocks of `size` elements, each of them sorted. -/
def Blocks (le : α → α → Prop) (size : Nat) (l : List α) : Prop := ∀ k, ((l.drop (k * size)).take size).Pairwise le

theorem mergePairs_perm (size fuel : Nat) (l : List α) : (mergePairs less size fuel l).Perm l := by
  induction fuel generalizing l with
  | zero => exact .refl _
  | succ fuel ih =>
    rw [mergePairs]
    split
    · exact .refl _
    · refine (List.Perm.append (symMerge_perm _ _ _) (ih _)).trans ?_
      rw [List.append_assoc, show 2 * size = size + size by omega, ← List.drop_drop, List.take_append_drop, List.take_append_drop]

theorem Blocks.drop {size : Nat} {l : List α} (h : Blocks le size l) (j : Nat) : Blocks le size (l.drop (j * size)) := by
  intro k
  rw [List.drop_drop, ← Nat.add_mul]
  exact h (j + k)

theorem mergePairs_blocks (hc : Compares less le) {size : Nat} (h0 : 0 < size) (fuel : Nat) (l : List α) (hf : l.length ≤ fuel) (hb : Blocks le size l) :
    Blocks le (2 * size) (mergePairs less size fuel l) := by
  induction fuel generalizing l with
  | zero =>
    have h1 : l = [] := List.length_eq_zero_iff.1 (by omega)
    subst h1
    intro k; simp [mergePairs]
  | succ fuel ih =>
    rw [mergePairs]
    split
    · rename_i hs
      intro k
      have h1 := hb 0
      simp only [Nat.zero_mul, List.drop_zero, List.take_of_length_le hs] at h1
      exact (h1.sublist (List.drop_sublist _ _)).sublist (List.take_sublist _ _)
    · rename_i hs
      have hlen : (symMerge less l.length (l.take size) ((l.drop size).take size)).length = min (2 * size) l.length := by
        rw [(symMerge_perm _ _ _).length_eq]
        simp only [List.length_append, List.length_take, List.length_drop]
        omega
      have hsorted : (symMerge less l.length (l.take size) ((l.drop size).take size)).Pairwise le := by
        refine symMerge_sorted hc _ _ _ (by simp only [List.length_take, List.length_drop]; omega) ?_ ?_
        · have := hb 0; simpa using this
        · have := hb 1; simpa using this
      intro k
      cases k with
      | zero =>
        rw [Nat.zero_mul, List.drop_zero]
        by_cases h2 : 2 * size ≤ l.length
        · rw [List.take_append_of_le_length (by omega), List.take_of_length_le (by omega)]
          exact hsorted
        · have : l.drop (2 * size) = [] := List.drop_eq_nil_of_le (by omega)
          rw [this]
          have hn : mergePairs less size fuel ([] : List α) = [] := (mergePairs_perm _ _ _).eq_nil
          rw [hn, List.append_nil]
          exact hsorted.sublist (List.take_sublist _ _)
      | succ k =>
        by_cases h2 : 2 * size ≤ l.length
        · have : (k + 1) * (2 * size) = (symMerge less l.length (l.take size) ((l.drop size).take size)).length + k * (2 * size) := by
            rw [hlen, Nat.add_mul]; omega
          rw [this, List.drop_append]
          rw [List.drop_eq_nil_of_le (by omega), List.nil_append, Nat.add_sub_cancel_left]
          exact ih _ (by rw [List.length_drop]; omega) (hb.drop 2) k
        · have : l.drop (2 * size) = [] := List.drop_eq_nil_of_le (by omega)
          rw [this]
          have hn : mergePairs less size fuel ([] : List α) = [] := (mergePairs_perm _ _ _).eq_nil
          rw [hn, List.append_nil]
          exact (hsorted.sublist (List.drop_sublist _ _)).sublist (List.take_sublist _ _)

theorem mergeAll_perm (fuel size : Nat) (l : List α) : (mergeAll less fuel size l).Perm l := by
  induction fuel generalizing size l with
  | zero => exact .refl _
  | succ fuel ih =>
    rw [mergeAll]
    split
    · exact (ih _ _).trans (mergePairs_perm _ _ _)
    · exact .refl _

theorem mergeAll_sorted (hc : Compares less le) (fuel size : Nat) (l : List α) (h0 : 0 < size) (hf : l.length ≤ fuel + size) (hb : Blocks le size l) :
    (mergeAll less fuel size l).Pairwise le := by
  have whole : ∀ {size : Nat} {l : List α}, l.length ≤ size → Blocks le size l → l.Pairwise le := by
    intro size l hs hb
    have := hb 0
    simpa [List.take_of_length_le hs] using this
  induction fuel generalizing size l with
  | zero => rw [mergeAll]; exact whole (by omega) hb
  | succ fuel ih =>
    rw [mergeAll]
    split
    · exact ih _ _ (by omega) (by rw [(mergePairs_perm _ _ _).length_eq]; omega) (mergePairs_blocks hc h0 _ _ (Nat.le_refl _) hb)
    · exact whole (by omega) hb

theorem blocks_perm (fuel : Nat) (l : List α) : (blocks less fuel l).Perm l := by
  induction fuel generalizing l with
  | zero => exact .refl _
  | succ fuel ih =>
    rw [blocks]
    split
    · exact insertionSort_perm l
    · refine (List.Perm.append (insertionSort_perm _) (ih _)).trans ?_
      rw [List.take_append_drop]

theorem blocks_blocks (hc : Compares less le) (fuel : Nat) (l : List α) (hf : l.length < fuel) : Blocks le 20 (blocks less fuel l) := by
  induction fuel generalizing l with
  | zero => omega
  | succ fuel ih =>
    rw [blocks]
    split
    · intro k
      exact ((insertionSort_sorted hc l).sublist (List.drop_sublist _ _)).sublist (List.take_sublist _ _)
    · rename_i hs
      have hlen : (insertionSort less (l.take 20)).length = 20 := by
        rw [(insertionSort_perm _).length_eq, List.length_take]; omega
      intro k
      cases k with
      | zero =>
        rw [Nat.zero_mul, List.drop_zero, List.take_append_of_le_length (by omega), List.take_of_length_le (by omega)]
        exact insertionSort_sorted hc _
      | succ k =>
        have : (k + 1) * 20 = (insertionSort less (l.take 20)).length + k * 20 := by rw [hlen]; omega
        rw [this, List.drop_append, List.drop_eq_nil_of_le (by omega), List.nil_append, Nat.add_sub_cancel_left]
        exact ih _ (by rw [List.length_drop]; omega) k

theorem stable_perm (l : List α) : (stable less l).Perm l := (mergeAll_perm _ _ _).trans (blocks_perm _ _)

/-- Go's stable sort sorts, with a comparison "less" as well as with one "less or equal". -/
theorem stable_sorted (hc : Compares less le) (l : List α) : (stable less l).Pairwise le :=
  mergeAll_sorted hc _ _ _ (by omega) (by rw [(blocks_perm _ _).length_eq]; omega) (blocks_blocks hc _ _ (by omega))

/-- The comparison `<=` and numbers in no particular order, more of them than one block. -/
example : Compares (fun a b : Nat => decide (a ≤ b)) (· ≤ ·) ∧
    stable (fun a b : Nat => decide (a ≤ b)) ((List.range 45).map (· * 7 % 45)) = List.range 45 :=
  ⟨⟨fun h1 h2 => Nat.le_trans h1 h2, fun h => by simpa using h, fun h => by simp at h; omega⟩, by decide +kernel⟩

end Gofre.Sort
