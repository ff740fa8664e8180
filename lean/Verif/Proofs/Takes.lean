import Verif.Proofs.Trim
import Verif.Spec.Compress

/-! # Lower case and white space -/

namespace Gofre
open Gofre.Spec

theorem lower_plain {c : UInt8} {l : Str} (h1 : c = 0xc4 → l.head? ≠ some 0xb0) (h2 : c = 0xe2 → l.take 2 ≠ [0x84, 0xaa]) :
    toLower (c :: l) = lowerByte c :: toLower l := by
  rw [toLower]
  · rintro l' rfl rfl; exact h1 rfl rfl
  · rintro l' rfl rfl; exact h2 rfl rfl

theorem lower_cases (s : Str) : s = [] ∨ (∃ l, s = 0xc4 :: 0xb0 :: l) ∨ (∃ l, s = 0xe2 :: 0x84 :: 0xaa :: l) ∨
    ∃ c l, s = c :: l ∧ (c = 0xc4 → l.head? ≠ some 0xb0) ∧ (c = 0xe2 → l.take 2 ≠ [0x84, 0xaa]) := by
  cases s with
  | nil => exact .inl rfl
  | cons c l =>
    by_cases h1 : c = 0xc4 ∧ l.head? = some 0xb0
    · obtain ⟨rfl, h⟩ := h1
      cases l with
      | nil => cases h
      | cons d l => simp only [List.head?_cons, Option.some.injEq] at h; subst h; exact .inr (.inl ⟨l, rfl⟩)
    · by_cases h2 : c = 0xe2 ∧ l.take 2 = [0x84, 0xaa]
      · obtain ⟨rfl, h⟩ := h2
        match l, h with
        | d :: e :: l, h =>
          simp only [List.take_succ_cons, List.take_zero, List.cons.injEq, and_true] at h
          obtain ⟨rfl, rfl⟩ := h
          exact .inr (.inr (.inl ⟨l, rfl⟩))
      · exact .inr (.inr (.inr ⟨c, l, rfl, fun h => fun h' => h1 ⟨h, h'⟩, fun h => fun h' => h2 ⟨h, h'⟩⟩))

/-- Recursion along the letters of a text. -/
theorem lower_induct {P : Str → Prop} (h0 : P []) (h1 : ∀ l, P l → P (0xc4 :: 0xb0 :: l)) (h2 : ∀ l, P l → P (0xe2 :: 0x84 :: 0xaa :: l))
    (h3 : ∀ c l, (c = 0xc4 → l.head? ≠ some 0xb0) → (c = 0xe2 → l.take 2 ≠ [0x84, 0xaa]) → P l → P (c :: l)) : ∀ s, P s := by
  have : ∀ n, ∀ s : Str, s.length ≤ n → P s := by
    intro n
    induction n with
    | zero => intro s hs; rw [List.eq_nil_of_length_eq_zero (l := s) (by omega)]; exact h0
    | succ n ih =>
      intro s hs
      rcases lower_cases s with rfl | ⟨l, rfl⟩ | ⟨l, rfl⟩ | ⟨c, l, rfl, hc, hd⟩
      · exact h0
      · exact h1 l (ih l (by simp only [List.length_cons] at hs; omega))
      · exact h2 l (ih l (by simp only [List.length_cons] at hs; omega))
      · exact h3 c l hc hd (ih l (by simp only [List.length_cons] at hs; omega))
  exact fun s => this s.length s (Nat.le_refl _)

theorem byte_all {P : UInt8 → Prop} (h : ∀ n < 256, P (UInt8.ofNat n)) (c : UInt8) : P c := by
  have := h c.toNat c.toNat_lt
  rwa [UInt8.ofNat_toNat] at this

theorem lowerByte_fix {c d : UInt8} (h : lowerByte c = d) (hd : ¬ (97 ≤ d ∧ d ≤ 122)) : c = d := by
  subst h
  revert hd
  exact byte_all (P := fun c => ¬ (97 ≤ lowerByte c ∧ lowerByte c ≤ 122) → c = lowerByte c) (by decide +kernel) c

/-- A text in lower case without letters is the text itself. -/
theorem lower_fixed {s : Str} : (∀ d ∈ toLower s, ¬ (97 ≤ d ∧ d ≤ 122)) → s = toLower s := by
  refine lower_induct (P := fun s => (∀ d ∈ toLower s, ¬ (97 ≤ d ∧ d ≤ 122)) → s = toLower s) ?_ ?_ ?_ ?_ s
  · intro _; rfl
  · intro l _ h; exact absurd (by decide : (97 : UInt8) ≤ 105 ∧ (105 : UInt8) ≤ 122) (h 105 (by simp [toLower]))
  · intro l _ h; exact absurd (by decide : (97 : UInt8) ≤ 107 ∧ (107 : UInt8) ≤ 122) (h 107 (by simp [toLower]))
  · intro c l h1 h2 ih h
    rw [lower_plain h1 h2] at h ⊢
    rw [← ih fun d hd => h d (by simp [hd]), ← lowerByte_fix rfl (h (lowerByte c) (by simp))]

theorem lower_split {x y : Str} : ∀ {s : Str}, toLower s = x ++ y → ∃ a b, s = a ++ b ∧ toLower a = x ∧ toLower b = y := by
  intro s
  refine lower_induct (P := fun s => ∀ x, toLower s = x ++ y → ∃ a b, s = a ++ b ∧ toLower a = x ∧ toLower b = y) ?_ ?_ ?_ ?_ s x
  · intro x h
    rw [show toLower [] = [] from rfl] at h
    obtain ⟨rfl, rfl⟩ := List.append_eq_nil_iff.1 h.symm
    exact ⟨[], [], rfl, rfl, rfl⟩
  · intro l ih x h
    cases x with
    | nil => exact ⟨[], _, rfl, rfl, h⟩
    | cons d x =>
      simp only [toLower, List.cons_append, List.cons.injEq] at h
      obtain ⟨a, b, rfl, ha, hb⟩ := ih x h.2
      exact ⟨0xc4 :: 0xb0 :: a, b, rfl, by simp only [toLower, ha, h.1], hb⟩
  · intro l ih x h
    cases x with
    | nil => exact ⟨[], _, rfl, rfl, h⟩
    | cons d x =>
      simp only [toLower, List.cons_append, List.cons.injEq] at h
      obtain ⟨a, b, rfl, ha, hb⟩ := ih x h.2
      exact ⟨0xe2 :: 0x84 :: 0xaa :: a, b, rfl, by simp only [toLower, ha, h.1], hb⟩
  · intro c l h1 h2 ih x h
    cases x with
    | nil => exact ⟨[], _, rfl, rfl, h⟩
    | cons d x =>
      rw [lower_plain h1 h2, List.cons_append, List.cons.injEq] at h
      obtain ⟨a, b, rfl, ha, hb⟩ := ih x h.2
      refine ⟨c :: a, b, rfl, ?_, hb⟩
      rw [lower_plain, h.1, ha]
      · intro hc e
        apply h1 hc
        cases a with
        | nil => cases e
        | cons u a => exact e
      · intro hc e
        apply h2 hc
        match a, e with
        | u :: v :: a, e => exact e

/-- Where the second text does not start in the middle of a letter, the two can be turned into lower case apart. -/
theorem lower_append {t : Str} (ht : ∀ b, t.head? = some b → b ≠ 0xb0 ∧ b ≠ 0x84 ∧ b ≠ 0xaa) (s : Str) : toLower (s ++ t) = toLower s ++ toLower t := by
  refine lower_induct (P := fun s => toLower (s ++ t) = toLower s ++ toLower t) rfl ?_ ?_ ?_ s
  · intro l ih; simp only [List.cons_append, toLower, ih]
  · intro l ih; simp only [List.cons_append, toLower, ih]
  · intro c l h1 h2 ih
    rw [List.cons_append, lower_plain, lower_plain h1 h2, ih, List.cons_append]
    · intro hc e
      cases l with
      | nil => exact (ht _ e).1 rfl
      | cons u l => exact h1 hc e
    · intro hc e
      match l, e with
      | [], e =>
        match t, e with
        | u :: v :: t, e =>
          simp only [List.nil_append, List.take_succ_cons, List.take_zero, List.cons.injEq, and_true] at e
          exact (ht u rfl).2.1 e.1
      | [u], e =>
        match t, e with
        | v :: t, e =>
          simp only [List.cons_append, List.nil_append, List.take_succ_cons, List.take_zero, List.cons.injEq, and_true] at e
          exact (ht v rfl).2.2 e.2
      | u :: v :: l, e => exact h2 hc e

theorem space_head {sp t : Str} (h : sp ∈ spaces) : ∀ b, (sp ++ t).head? = some b → b ≠ 0xb0 ∧ b ≠ 0x84 ∧ b ≠ 0xaa := by
  have : ∀ sp ∈ spaces, ∃ c l, sp = c :: l ∧ c ≠ 0xb0 ∧ c ≠ 0x84 ∧ c ≠ 0xaa := by
    intro sp h
    cases sp with
    | nil => exact absurd rfl (spaces_ne_nil _ h)
    | cons c l =>
      have := (by decide : ∀ sp ∈ spaces, sp.head? ≠ some 0xb0 ∧ sp.head? ≠ some 0x84 ∧ sp.head? ≠ some 0xaa) _ h
      exact ⟨c, l, rfl, by simpa using this⟩
  obtain ⟨c, l, rfl, hc⟩ := this sp h
  intro b hb
  simp only [List.cons_append, List.head?_cons, Option.some.injEq] at hb
  rw [← hb]; exact hc

theorem gap_head {s : Str} (h : Gap s) (b : UInt8) (hb : s.head? = some b) : b ≠ 0xb0 ∧ b ≠ 0x84 ∧ b ≠ 0xaa := by
  cases h with
  | nil => cases hb
  | cons hn _ => exact space_head (space_mem hn) b hb

theorem lower_space : ∀ sp ∈ spaces, toLower sp = sp := by decide +kernel

theorem lower_space_append : ∀ sp ∈ spaces, ∀ t, toLower (sp ++ t) = sp ++ toLower t := by
  intro sp h t
  simp only [spaces, List.mem_cons, List.not_mem_nil, or_false] at h
  rcases h with rfl | rfl | rfl | rfl | rfl | rfl | rfl | rfl | rfl | rfl | rfl | rfl | rfl | rfl | rfl | rfl | rfl | rfl | rfl | rfl | rfl | rfl |
    rfl | rfl | rfl <;> rfl

theorem lower_gap {s : Str} (h : Gap s) : toLower s = s := by
  induction h with
  | nil => rfl
  | cons hn hs ih => rw [lower_append (gap_head hs), ih, lower_space _ (space_mem hn)]

theorem lower_is_space {s sp : Str} (h : sp ∈ spaces) (hs : toLower s = sp) : s = sp := by
  rw [← hs]
  refine lower_fixed ?_
  rw [hs]
  exact (by decide : ∀ sp ∈ spaces, ∀ d ∈ sp, ¬ (97 ≤ d ∧ d ≤ 122)) sp h

/-- Trimming a text in lower case is the same as the other way round. -/
theorem trim_lower (s : Str) : trimSpace (toLower s) = toLower (trimSpace s) := by
  refine trimSpace_of_trims ?_
  obtain ⟨⟨pre, post, hs, h1, h2⟩, hf, hl⟩ := trims_trimSpace s
  generalize trimSpace s = m at *
  subst hs
  refine ⟨⟨pre, post, ?_, h1, h2⟩, ?_, ?_⟩
  · have hpre : ∀ t, toLower (pre ++ t) = pre ++ toLower t := by
      intro t
      clear hf hl h2
      induction h1 with
      | nil => rfl
      | @cons n p hn hp ih =>
        rw [List.append_assoc, List.append_assoc, lower_space_append _ (space_mem hn), ih]
    rw [List.append_assoc, hpre, lower_append (gap_head h2), lower_gap h2, List.append_assoc]
  · rintro n hn ⟨t, ht⟩
    obtain ⟨a, b, rfl, ha, hb⟩ := lower_split ht.symm
    rw [lower_is_space (space_mem hn) ha] at hf
    exact hf n hn (List.prefix_append _ _)
  · rintro n hn ⟨t, ht⟩
    obtain ⟨a, b, rfl, ha, hb⟩ := lower_split ht.symm
    rw [lower_is_space (space_mem hn) hb] at hl
    exact hl n hn (List.suffix_append _ _)

theorem split_lower (s : Str) : splitOn 44 (toLower s) = (splitOn 44 s).map toLower := by
  have hsub : ∀ (a : Str) (l : List Str) (t : Str), splitOn 44 t = a :: l → ∃ r, t = a ++ r := by
    intro a l t h
    have h1 := joinWith_splitOn 44 t
    rw [h] at h1
    cases l with
    | nil => exact ⟨[], by rw [← h1]; simp [joinWith]⟩
    | cons b l => exact ⟨_, h1.symm⟩
  refine lower_induct (P := fun s => splitOn 44 (toLower s) = (splitOn 44 s).map toLower) rfl ?_ ?_ ?_ s
  · intro l ih
    cases h : splitOn 44 l with
    | nil => exact absurd h (splitOn_ne_nil _ _)
    | cons a t =>
      rw [h] at ih
      simp [toLower, splitOn, ih, h]
  · intro l ih
    cases h : splitOn 44 l with
    | nil => exact absurd h (splitOn_ne_nil _ _)
    | cons a t =>
      rw [h] at ih
      simp [toLower, splitOn, ih, h]
  · intro c l h1 h2 ih
    rw [lower_plain h1 h2]
    by_cases hc : c = 44
    · subst hc
      rw [show lowerByte 44 = 44 from rfl]
      simp [splitOn, ih, toLower]
    · have hc' : lowerByte c ≠ 44 := fun h => hc (lowerByte_fix h (by decide))
      cases h : splitOn 44 l with
      | nil => exact absurd h (splitOn_ne_nil _ _)
      | cons a t =>
        rw [h] at ih
        obtain ⟨r, rfl⟩ := hsub a t l h
        simp only [splitOn, if_neg hc, if_neg hc', ih, h, List.map_cons, List.cons.injEq, and_true]
        rw [lower_plain]
        · intro hc e
          apply h1 hc
          cases a with
          | nil => cases e
          | cons u a => exact e
        · intro hc e
          apply h2 hc
          match a, e with
          | u :: v :: a, e => exact e

theorem spelt_iff {m n : Str} (hn : ∀ c ∈ n, 97 ≤ c ∧ c ≤ 122) : SpeltAs m n ↔ toLower m = n := by
  constructor
  · intro h
    induction h with
    | nil => rfl
    | @small c s n h1 h2 _ ih =>
      rw [lower_plain, ih fun c hc => hn c (by simp [hc])]
      · congr 1
        revert h1 h2
        exact byte_all (P := fun c => 97 ≤ c → c ≤ 122 → lowerByte c = c) (by decide +kernel) c
      · rintro rfl; exact absurd h2 (by decide)
      · rintro rfl; exact absurd h2 (by decide)
    | @capital c s n h1 h2 _ ih =>
      rw [lower_plain, ih fun c hc => hn c (by simp [hc])]
      · congr 1
        simp [lowerByte, h1, h2]
      · rintro rfl; exact absurd h2 (by decide)
      · rintro rfl; exact absurd h2 (by decide)
    | dotted _ ih => simp only [List.cons_append, List.nil_append, toLower, ih fun c hc => hn c (by simp [hc])]
    | kelvin _ ih => simp only [List.cons_append, List.nil_append, toLower, ih fun c hc => hn c (by simp [hc])]
  · refine lower_induct (P := fun m => ∀ n : Str, (∀ c ∈ n, 97 ≤ c ∧ c ≤ 122) → toLower m = n → SpeltAs m n) ?_ ?_ ?_ ?_ m n hn
    · rintro n _ rfl; exact .nil
    · rintro l ih n hn rfl
      simp only [toLower] at hn ⊢
      exact .dotted (ih _ (fun c hc => hn c (by simp [hc])) rfl)
    · rintro l ih n hn rfl
      simp only [toLower] at hn ⊢
      exact .kelvin (ih _ (fun c hc => hn c (by simp [hc])) rfl)
    · rintro c l h1 h2 ih n hn rfl
      rw [lower_plain h1 h2] at hn ⊢
      have hl := ih _ (fun c hc => hn c (by simp [hc])) rfl
      have hc := hn (lowerByte c) (by simp)
      by_cases hu : 65 ≤ c ∧ c ≤ 90
      · rw [show lowerByte c = c + 32 by simp [lowerByte, hu]]
        exact .capital hu.1 hu.2 hl
      · have : lowerByte c = c := by simp only [lowerByte, if_neg hu]
        rw [this] at hc ⊢
        exact .small hc.1 hc.2 hl

/-- The members in lower case, as the middleware makes them. -/
theorem takes_iff {accept n : Str} (hn : ∀ c ∈ n, 97 ≤ c ∧ c ≤ 122) : Takes accept n ↔ n ∈ (splitOn 44 (toLower accept)).map trimSpace := by
  rw [split_lower, List.map_map]
  simp only [Takes, member_iff, spelt_iff hn, List.mem_map, Function.comp_def, trim_lower]
  constructor
  · rintro ⟨m, ⟨e, he, rfl⟩, h⟩; exact ⟨e, he, h⟩
  · rintro ⟨e, he, h⟩; exact ⟨_, ⟨e, he, rfl⟩, h⟩

end Gofre
