import Verif.Spec.Trim
import Verif.Proofs.Text

/-! # `strings.TrimSpace` leaves what is between the white space -/

namespace Gofre
open Gofre.Spec

theorem space_mem {n : Nat} (h : WhiteSpace n) : utf8 n ∈ spaces := by
  unfold WhiteSpace at h
  rcases h with h | h | h | h | h | h | h | h | h | h | h
  · have : ∀ n, n < 14 → 9 ≤ n → utf8 n ∈ spaces := by decide
    exact this n (by omega) h.1
  all_goals try (subst h; decide)
  obtain ⟨k, rfl⟩ : ∃ k, n = 0x2000 + k := ⟨n - 0x2000, by omega⟩
  have : ∀ k, k < 11 → utf8 (0x2000 + k) ∈ spaces := by decide
  exact this k (by omega)

theorem mem_space {sp : Str} (h : sp ∈ spaces) : ∃ n, WhiteSpace n ∧ utf8 n = sp := by
  have : ∀ sp ∈ spaces, ∃ n ∈ [9, 10, 11, 12, 13, 32, 0x85, 0xa0, 0x1680, 0x2000, 0x2001, 0x2002, 0x2003, 0x2004, 0x2005, 0x2006, 0x2007, 0x2008,
      0x2009, 0x200a, 0x2028, 0x2029, 0x202f, 0x205f, 0x3000], WhiteSpace n ∧ utf8 n = sp := by decide +kernel
  obtain ⟨n, _, hn⟩ := this sp h
  exact ⟨n, hn⟩

theorem gap_iff {s : Str} : Gap s ↔ ∃ l : List Str, (∀ sp ∈ l, sp ∈ spaces) ∧ s = l.flatten := by
  constructor
  · intro h
    induction h with
    | nil => exact ⟨[], by simp, rfl⟩
    | @cons n s hn _ ih =>
      obtain ⟨l, h1, rfl⟩ := ih
      exact ⟨utf8 n :: l, by simpa using ⟨space_mem hn, h1⟩, rfl⟩
  · rintro ⟨l, h, rfl⟩
    induction l with
    | nil => exact .nil
    | cons sp l ih =>
      obtain ⟨n, hn, rfl⟩ := mem_space (h sp (by simp))
      exact .cons hn (ih fun sp hsp => h sp (by simp [hsp]))

theorem gap_append {s t : Str} (hs : Gap s) (ht : Gap t) : Gap (s ++ t) := by
  induction hs with
  | nil => exact ht
  | cons hn _ ih => rw [List.append_assoc]; exact .cons hn ih

theorem stripOne_hit {sps : List Str} (hfree : ∀ a ∈ sps, ∀ b ∈ sps, a <+: b → a = b) {sp : Str} (hm : sp ∈ sps) (t : Str) :
    stripOne sps (sp ++ t) = some t := by
  cases h : stripOne sps (sp ++ t) with
  | none => exact absurd (List.prefix_append sp t) (stripOne_none h sp hm)
  | some u =>
    obtain ⟨q, hq, hu⟩ := List.exists_of_findSome?_eq_some h
    split at hu
    · rename_i hp
      rw [List.isPrefixOf_iff_prefix] at hp
      have : q = sp := by
        rcases List.prefix_or_prefix_of_prefix hp (List.prefix_append sp t) with h | h
        · exact hfree q hq sp hm h
        · exact (hfree sp hm q hq h).symm
      subst this
      rw [← hu]; simp
    · cases hu

theorem stripAll_run {sps : List Str} (hfree : ∀ a ∈ sps, ∀ b ∈ sps, a <+: b → a = b) {t : Str} (ht : ∀ sp ∈ sps, ¬ sp <+: t) :
    ∀ (l : List Str) (n : Nat), (∀ sp ∈ l, sp ∈ sps) → l.length ≤ n → stripAll sps n (l.flatten ++ t) = t := by
  intro l
  induction l with
  | nil => intro n _ _; exact stripAll_id sps n t ht
  | cons sp l ih =>
    intro n hl hn
    cases n with
    | zero => simp at hn
    | succ n =>
      rw [List.flatten_cons, List.append_assoc, stripAll, stripOne_hit hfree (hl sp (by simp))]
      exact ih n (fun s hs => hl s (by simp [hs])) (by simpa using hn)

theorem stripAll_parts (sps : List Str) : ∀ (n : Nat) (s : Str), ∃ l : List Str, (∀ sp ∈ l, sp ∈ sps) ∧ s = l.flatten ++ stripAll sps n s := by
  intro n
  induction n with
  | zero => intro s; exact ⟨[], by simp, rfl⟩
  | succ n ih =>
    intro s
    rw [stripAll]
    cases h : stripOne sps s with
    | none => exact ⟨[], by simp, rfl⟩
    | some u =>
      obtain ⟨q, hq, hu⟩ := List.exists_of_findSome?_eq_some h
      split at hu
      · rename_i hp
        rw [List.isPrefixOf_iff_prefix] at hp
        obtain ⟨v, rfl⟩ := hp
        simp only [List.drop_left, Option.some.injEq] at hu
        subst hu
        obtain ⟨l, h1, h2⟩ := ih v
        refine ⟨q :: l, by simpa using ⟨hq, h1⟩, ?_⟩
        show q ++ v = (q :: l).flatten ++ stripAll sps n v
        rw [List.flatten_cons, List.append_assoc, ← h2]
      · cases hu

theorem length_run {sps l : List Str} (hne : ∀ sp ∈ sps, sp ≠ []) (hl : ∀ sp ∈ l, sp ∈ sps) : l.length ≤ l.flatten.length := by
  induction l with
  | nil => simp
  | cons sp l ih =>
    have h1 := List.length_pos_iff.2 (hne sp (hl sp (by simp)))
    have h2 := ih fun s hs => hl s (by simp [hs])
    simp only [List.length_cons, List.flatten_cons, List.length_append]; omega

theorem spaces_free : ∀ a ∈ spaces, ∀ b ∈ spaces, a <+: b → a = b := by decide +kernel

theorem spacesRev_free : ∀ a ∈ spaces.map List.reverse, ∀ b ∈ spaces.map List.reverse, a <+: b → a = b := by decide +kernel

theorem flatten_reverse (l : List Str) : l.flatten.reverse = (l.map List.reverse).reverse.flatten := by
  rw [List.reverse_flatten]

/-- `strings.TrimSpace` removes the white space around a text and nothing else. -/
theorem trims_trimSpace (s : Str) : Trims s (trimSpace s) := by
  have ht := trimSpace_trimmed s
  refine ⟨?_, fun n hn => ht.1 _ (space_mem hn), fun n hn h => ht.2 _ (List.mem_map_of_mem (space_mem hn)) (List.reverse_prefix.2 h)⟩
  obtain ⟨l, h1, h2⟩ := stripAll_parts spaces s.length s
  obtain ⟨r, h3, h4⟩ := stripAll_parts (spaces.map List.reverse) (trimLeft s).length (trimLeft s).reverse
  refine ⟨l.flatten, (r.map List.reverse).reverse.flatten, ?_, gap_iff.2 ⟨l, h1, rfl⟩, gap_iff.2 ⟨_, ?_, rfl⟩⟩
  · have h5 := congrArg List.reverse h4
    rw [List.reverse_reverse, List.reverse_append] at h5
    rw [← flatten_reverse, List.append_assoc]
    exact h2.trans (congrArg (l.flatten ++ ·) h5)
  · intro sp hsp
    obtain ⟨q, hq, rfl⟩ := List.mem_map.1 (List.mem_reverse.1 hsp)
    obtain ⟨p, hp, rfl⟩ := List.mem_map.1 (h3 q hq)
    simpa using hp

theorem trimSpace_of_trims {s m : Str} (h : Trims s m) : trimSpace s = m := by
  obtain ⟨⟨pre, post, rfl, hpre, hpost⟩, hf, hl⟩ := h
  obtain ⟨l, h1, rfl⟩ := gap_iff.1 hpre
  obtain ⟨r, h2, rfl⟩ := gap_iff.1 hpost
  have hf' : ∀ sp ∈ spaces, ¬ sp <+: m := fun sp hsp => by
    obtain ⟨n, hn, rfl⟩ := mem_space hsp
    exact hf n hn
  have hl' : ∀ sp ∈ spaces.map List.reverse, ¬ sp <+: m.reverse := fun sp hsp h => by
    obtain ⟨q, hq, rfl⟩ := List.mem_map.1 hsp
    obtain ⟨n, hn, rfl⟩ := mem_space hq
    exact hl n hn (List.reverse_prefix.1 h)
  by_cases hm : m = []
  · subst hm
    have : trimLeft (l.flatten ++ [] ++ r.flatten) = [] := by
      have := stripAll_run spaces_free (t := []) (fun sp hsp h => spaces_ne_nil sp hsp (List.prefix_nil.1 h)) (l ++ r) (l ++ r).flatten.length
        (by simpa [or_imp, forall_and] using ⟨h1, h2⟩) (length_run spaces_ne_nil (by simpa [or_imp, forall_and] using ⟨h1, h2⟩))
      simpa [trimLeft] using this
    unfold trimSpace
    rw [this]; rfl
  · have hmid : ∀ sp ∈ spaces, ¬ sp <+: m ++ r.flatten := by
      intro sp hsp hp
      rcases List.prefix_or_prefix_of_prefix hp (List.prefix_append m _) with h | h
      · exact hf' sp hsp h
      · obtain ⟨q, rfl⟩ := h
        rw [List.prefix_append_right_inj] at hp
        cases q with
        | nil => exact hf' m (by simpa using hsp) (List.prefix_refl m)
        | cons c q =>
          cases r with
          | nil => simp at hp
          | cons b r =>
            have hb : b ∈ spaces := h2 b (by simp)
            have hc : c ∈ (m ++ c :: q).tail := by
              cases m with
              | nil => exact absurd rfl hm
              | cons a m => simp
            have hbc : b.head? = some c := by
              cases b with
              | nil => exact absurd rfl (spaces_ne_nil _ hb)
              | cons d b =>
                simp only [List.flatten_cons, List.cons_append, List.cons_prefix_cons] at hp
                simp [hp.1]
            have : ∀ a ∈ spaces, ∀ b ∈ spaces, ∀ c ∈ a.tail, b.head? ≠ some c := by decide +kernel
            exact this _ hsp _ hb _ hc hbc
    have hleft : trimLeft (l.flatten ++ m ++ r.flatten) = m ++ r.flatten := by
      unfold trimLeft
      rw [List.append_assoc]
      refine stripAll_run spaces_free hmid l _ h1 ?_
      have := length_run spaces_ne_nil h1
      simp only [List.length_append]; omega
    unfold trimSpace
    rw [hleft]
    unfold trimRight
    have hr : ∀ sp ∈ (r.map List.reverse).reverse, sp ∈ spaces.map List.reverse := fun sp hsp => by
      obtain ⟨q, hq, rfl⟩ := List.mem_map.1 (List.mem_reverse.1 hsp)
      exact List.mem_map_of_mem (h2 q hq)
    rw [List.reverse_append, flatten_reverse, stripAll_run spacesRev_free hl' _ _ hr, List.reverse_reverse]
    have := length_run spacesRev_ne_nil hr
    rw [← flatten_reverse] at this
    simp only [List.length_append, List.length_reverse] at this ⊢
    omega

theorem trims_iff {s m : Str} : Trims s m ↔ trimSpace s = m :=
  ⟨trimSpace_of_trims, fun h => h ▸ trims_trimSpace s⟩

instance (s m : Str) : Decidable (Trims s m) := decidable_of_iff _ trims_iff.symm

/-- White space around a text does not matter. -/
theorem trims_gap {pre s post m : Str} (h1 : Gap pre) (h2 : Gap post) (h : Trims s m) : Trims (pre ++ s ++ post) m := by
  obtain ⟨⟨a, b, rfl, ha, hb⟩, hf, hl⟩ := h
  exact ⟨⟨pre ++ a, b ++ post, by simp, gap_append h1 ha, gap_append hb h2⟩, hf, hl⟩

theorem splitOn_comma (sep : UInt8) (a b : Str) : splitOn sep (a ++ sep :: b) = splitOn sep a ++ splitOn sep b := by
  induction a with
  | nil => simp [splitOn]
  | cons c a ih =>
    simp only [List.cons_append, splitOn]
    split
    · simp [ih]
    · rw [ih]
      cases h : splitOn sep a with
      | nil => exact absurd h (splitOn_ne_nil _ _)
      | cons h t => rfl

theorem joinWith_two (sep : UInt8) : ∀ {a b : List Str}, a ≠ [] → b ≠ [] → joinWith sep (a ++ b) = joinWith sep a ++ sep :: joinWith sep b
  | [], _, h, _ => absurd rfl h
  | [p], b, _, h => by
    cases b with
    | nil => exact absurd rfl h
    | cons q b => rfl
  | p :: q :: a, b, _, h => by
    have := joinWith_two sep (a := q :: a) (by simp) h
    simp only [List.cons_append, joinWith] at this ⊢
    rw [this]; simp

theorem between_iff {v p : Str} : Between v p ↔ p ∈ splitOn 44 v := by
  constructor
  · rintro ⟨hp, pre, post, rfl, h1, h2⟩
    have hend : p ∈ splitOn 44 (p ++ post) := by
      rcases h2 with rfl | h2
      · simp [splitOn_of_not_mem hp]
      · cases post with
        | nil => cases h2
        | cons c post =>
          simp only [List.head?_cons, Option.some.injEq] at h2
          subst h2
          rw [splitOn_append hp]; simp
    rcases h1 with rfl | h1
    · exact hend
    · obtain ⟨q, rfl⟩ := List.getLast?_eq_some_iff.1 h1
      rw [List.append_assoc, List.append_assoc, List.singleton_append, splitOn_comma]
      exact List.mem_append_right _ hend
  · intro h
    refine ⟨splitOn_no_sep 44 v p h, ?_⟩
    obtain ⟨l, r, hlr⟩ := List.append_of_mem h
    have hv : v = joinWith 44 (l ++ p :: r) := by rw [← hlr, joinWith_splitOn]
    have hr : ∃ post, joinWith 44 (p :: r) = p ++ post ∧ (post = [] ∨ post.head? = some 44) := by
      cases r with
      | nil => exact ⟨[], by simp [joinWith], .inl rfl⟩
      | cons q r => exact ⟨_, rfl, .inr rfl⟩
    obtain ⟨post, h1, h2⟩ := hr
    by_cases hl : l = []
    · subst hl
      exact ⟨[], post, by rw [hv]; simpa using h1, .inl rfl, h2⟩
    · exact ⟨joinWith 44 l ++ [44], post, by rw [hv, joinWith_two 44 hl (by simp), h1]; simp, .inr (by simp), h2⟩

theorem member_iff {v m : Str} : Member v m ↔ m ∈ (splitOn 44 v).map trimSpace := by
  simp only [Member, between_iff, trims_iff, List.mem_map]

instance (v m : Str) : Decidable (Member v m) := decidable_of_iff _ member_iff.symm

theorem gap_no_comma {s : Str} (h : Gap s) : (44 : UInt8) ∉ s := by
  obtain ⟨l, h1, rfl⟩ := gap_iff.1 h
  intro hm
  obtain ⟨sp, hsp, hc⟩ := List.mem_flatten.1 hm
  exact (by decide : ∀ sp ∈ spaces, (44 : UInt8) ∉ sp) sp (h1 sp hsp) hc

theorem splitOn_pre {p : Str} (h : (44 : UInt8) ∉ p) (s : Str) : splitOn 44 (p ++ s) = match splitOn 44 s with
    | [] => []
    | a :: l => (p ++ a) :: l := by
  induction p with
  | nil => simp only [List.nil_append]; cases splitOn 44 s <;> rfl
  | cons c p ih =>
    simp only [List.mem_cons, not_or] at h
    rw [List.cons_append, splitOn, if_neg (fun e => h.1 e.symm), ih h.2]
    cases hs : splitOn 44 s with
    | nil => exact absurd hs (splitOn_ne_nil _ _)
    | cons a l => rfl

/-- White space around a list does not matter. -/
theorem member_trim (v m : Str) : Member (trimSpace v) m ↔ Member v m := by
  obtain ⟨⟨pre, post, hv, h1, h2⟩, -, -⟩ := trims_trimSpace v
  generalize trimSpace v = t at hv
  subst hv
  have hpre : ∀ s, (splitOn 44 (pre ++ s)).map trimSpace = (splitOn 44 s).map trimSpace := by
    intro s
    rw [splitOn_pre (gap_no_comma h1)]
    cases splitOn 44 s with
    | nil => rfl
    | cons a l =>
      simp only [List.map_cons, List.cons.injEq, and_true]
      have := trims_gap h1 .nil (trims_trimSpace a)
      rw [List.append_nil] at this
      exact trimSpace_of_trims this
  have hpost : (splitOn 44 (t ++ post)).map trimSpace = (splitOn 44 t).map trimSpace := by
    have hlast : ∀ s : Str, (44 : UInt8) ∉ s → trimSpace (s ++ post) = trimSpace s := fun s _ =>
      trimSpace_of_trims (by simpa using trims_gap .nil h2 (trims_trimSpace s))
    have hz : ∀ z : Str, (44 : UInt8) ∉ z → (splitOn 44 (z ++ post)).map trimSpace = (splitOn 44 z).map trimSpace := fun z hz => by
      rw [splitOn_of_not_mem (by simpa using ⟨hz, gap_no_comma h2⟩), splitOn_of_not_mem hz]
      simp [hlast z hz]
    by_cases hc : (44 : UInt8) ∈ t
    · obtain ⟨q, z, rfl, hn⟩ : ∃ q z, t = q ++ 44 :: z ∧ (44 : UInt8) ∉ z := by
        clear hz hlast
        induction t with
        | nil => cases hc
        | cons c t ih =>
          by_cases ht : (44 : UInt8) ∈ t
          · obtain ⟨q, z, rfl, hn⟩ := ih ht
            exact ⟨c :: q, z, rfl, hn⟩
          · have : c = 44 := by
              rcases List.mem_cons.1 hc with h | h
              · exact h.symm
              · exact absurd h ht
            exact ⟨[], t, by simp [this], ht⟩
      rw [List.append_assoc, List.cons_append, splitOn_comma, splitOn_comma, List.map_append, List.map_append, hz z hn]
    · exact hz t hc
  rw [member_iff, member_iff, List.append_assoc, hpre, hpost]

end Gofre
