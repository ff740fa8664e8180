import Verif.Model.Cors
import Verif.Spec.Media
import Verif.Proofs.Text

/-!
# Lemmas on media types
-/

namespace Gofre.Cors
open Gofre.Spec

theorem head_split (s : Str) : (splitOn 59 s).headD [] = withoutParameters s := by
  unfold withoutParameters
  induction s with
  | nil => rfl
  | cons c s ih =>
    unfold splitOn
    by_cases h : c = 59
    · simp [h]
    · rw [List.takeWhile_cons_of_pos (by simpa using h), ← ih]
      cases hs : splitOn 59 s <;> simp [h]

theorem lower_mark {c : UInt8} (h : c ≠ 59) : lowerByte c ≠ 59 := by
  unfold lowerByte
  split
  · rename_i hc
    intro he
    have := congrArg UInt8.toNat he
    simp only [UInt8.le_iff_toNat_le, UInt8.toNat_add] at hc this
    simp at hc this
    omega
  · exact h

theorem lower_visible {c : UInt8} (h : 33 ≤ c ∧ c ≤ 126) : 33 ≤ lowerByte c ∧ lowerByte c ≤ 126 := by
  unfold lowerByte
  split
  · rename_i hc
    simp only [UInt8.le_iff_toNat_le, UInt8.toNat_add] at hc ⊢
    simp at hc ⊢
    omega
  · exact h

theorem visible_lower : ∀ (s : Str), NamesType s → NamesType (toLower s) := by
  intro s
  fun_induction toLower s with
  | case1 l ih => exact fun _ => ⟨105, by simp [withoutParameters], by decide, by decide⟩
  | case2 l ih => exact fun _ => ⟨107, by simp [withoutParameters], by decide, by decide⟩
  | case3 c l h1 h2 ih =>
    rintro ⟨b, hb, hv⟩
    unfold withoutParameters at hb
    by_cases hc : c = 59
    · simp [hc] at hb
    · have hl : lowerByte c ≠ 59 := lower_mark hc
      rw [List.takeWhile_cons_of_pos (by simpa using hc)] at hb
      unfold NamesType withoutParameters
      rw [List.takeWhile_cons_of_pos (by simpa using hl)]
      rcases List.mem_cons.1 hb with rfl | hb
      · exact ⟨_, List.mem_cons_self .., lower_visible hv⟩
      · obtain ⟨b', hb', hv'⟩ := ih ⟨b, hb, hv⟩
        exact ⟨b', List.mem_cons_of_mem _ hb', hv'⟩
  | case4 => exact id

theorem visible_strip {sps : List Str} (hs : ∀ sp ∈ sps, ∀ b ∈ sp, ¬ (33 ≤ b ∧ b ≤ 126)) {b : UInt8} (hv : 33 ≤ b ∧ b ≤ 126) :
    ∀ (n : Nat) (s : Str), b ∈ s → b ∈ stripAll sps n s
  | 0, _, h => h
  | n + 1, s, h => by
    unfold stripAll
    split
    · rename_i s' hs'
      apply visible_strip hs hv n
      unfold stripOne at hs'
      obtain ⟨sp, hm, hp⟩ := List.exists_of_findSome?_eq_some hs'
      split at hp
      · rename_i hpre
        cases hp
        obtain ⟨t, rfl⟩ := List.isPrefixOf_iff_prefix.1 hpre
        rw [List.drop_left]
        rcases List.mem_append.1 h with h | h
        · exact absurd hv (hs sp hm b h)
        · exact h
      · cases hp
    · exact h

theorem visible_trim {s : Str} {b : UInt8} (hv : 33 ≤ b ∧ b ≤ 126) (h : b ∈ s) : b ∈ trimSpace s := by
  unfold trimSpace trimRight trimLeft
  rw [List.mem_reverse]
  apply visible_strip (by decide) hv
  rw [List.mem_reverse]
  exact visible_strip (by decide) hv _ _ h

/-- A content type that says something is one for the middleware. -/
theorem mediaType_names {v : Str} (h : NamesType v) : mediaType v ≠ [] := by
  unfold mediaType
  split
  · rename_i hv
    subst hv
    obtain ⟨b, hb, -⟩ := h
    cases hb
  · obtain ⟨b, hb, hv⟩ := visible_lower v h
    rw [head_split]
    exact List.ne_nil_of_mem (visible_trim hv hb)

theorem lower_blanks : ∀ (s : Str), NoType s → NoType (toLower s) := by
  intro s
  unfold NoType withoutParameters
  fun_induction toLower s with
  | case1 l ih => intro h; exact absurd (h 0xc4 (by simp)) (by decide)
  | case2 l ih => intro h; exact absurd (h 0xe2 (by simp)) (by decide)
  | case3 c l h1 h2 ih =>
    intro h
    by_cases hc : c = 59
    · subst hc; intro b hb; simp [lowerByte] at hb
    · rw [List.takeWhile_cons_of_pos (by simpa using hc)] at h
      rw [List.takeWhile_cons_of_pos (by simpa using lower_mark hc)]
      intro b hb
      rcases List.mem_cons.1 hb with rfl | hb
      · rcases h c (List.mem_cons_self ..) with rfl | rfl <;> decide
      · exact ih (fun b hb => h b (List.mem_cons_of_mem _ hb)) b hb
  | case4 => exact id

/-- A content type that says nothing is none for the middleware. -/
theorem mediaType_none {v : Str} (h : NoType v) : mediaType v = [] := by
  unfold mediaType
  split
  · rename_i hv; exact hv
  · rw [head_split]
    have hb := lower_blanks v h
    have ht := trimSpace_trimmed (withoutParameters (toLower v))
    cases he : trimSpace (withoutParameters (toLower v)) with
    | nil => rfl
    | cons b l =>
      rw [he] at ht
      rcases hb b (mem_of_mem_trimSpace (by rw [he]; exact List.mem_cons_self ..)) with rfl | rfl
      · exact absurd ⟨l, rfl⟩ (ht.1 [32] (by decide))
      · exact absurd ⟨l, rfl⟩ (ht.1 [9] (by decide))

end Gofre.Cors
