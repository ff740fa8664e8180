import Verif.Spec.Pattern
import Verif.Proofs.Glob

namespace Gofre.Path
open Gofre.Spec

/-! ### One piece -/

theorem starsLoop_false_iff (n : Nat) (hn : n ≤ 1) (s : Str) :
    starsLoop n s = false ↔ NoDoubleStar s ∧ (n = 1 → s.head? ≠ some 42) := by
  induction s generalizing n with
  | nil =>
    simp [starsLoop, NoDoubleStar]
  | cons c l ih =>
    simp only [starsLoop]
    by_cases hc : c = 42
    · subst hc
      simp only [if_true]
      by_cases h1 : n = 1
      · subst h1; simp
      · have h0 : n = 0 := by omega
        subst h0
        simp only [Nat.zero_add, show ¬ (1 ≥ 2) by omega, if_false, h1, false_implies, and_true]
        rw [ih 1 (by omega)]
        constructor
        · rintro ⟨hnd, hh⟩ ⟨a, b, e⟩
          cases a with
          | nil => simp at e; subst e; simp at hh
          | cons a0 a => simp at e; exact hnd ⟨a, b, e.2⟩
        · intro hnd
          refine ⟨fun ⟨a, b, e⟩ => hnd ⟨42 :: a, b, by simp [e]⟩, fun _ hh => ?_⟩
          cases l with
          | nil => simp at hh
          | cons d l => simp at hh; subst hh; exact hnd ⟨[], l, by simp⟩
    · simp only [if_neg hc, show ¬ (0 ≥ 2) by omega, if_false]
      rw [ih 0 (by omega)]
      constructor
      · rintro ⟨hnd, _⟩
        refine ⟨fun ⟨a, b, e⟩ => ?_, fun _ hh => ?_⟩
        · cases a with
          | nil => simp at e; exact hc e.1
          | cons a0 a => simp at e; exact hnd ⟨a, b, e.2⟩
        · simp at hh; exact hc hh
      · rintro ⟨hnd, _⟩
        exact ⟨fun ⟨a, b, e⟩ => hnd ⟨c :: a, b, by simp [e]⟩, by simp⟩

theorem colonsLoop_true_iff (len : Nat) (pos : Nat) (l : Str) :
    colonsLoop len pos l = true ↔
      ∃ i, i < l.length ∧ pos + i < len - 1 ∧ l[i]? = some 58 ∧ (pos + i = 1 ∨ pos + i = len - 2) := by
  induction l generalizing pos with
  | nil => simp [colonsLoop]
  | cons c l ih =>
    simp only [colonsLoop]
    split
    · rename_i hp
      split
      · rename_i hc
        simp only [true_iff]
        exact ⟨0, by simp, by omega, by simp [hc.1], by omega⟩
      · rename_i hc
        rw [ih]
        constructor
        · rintro ⟨i, h1, h2, h3, h4⟩
          exact ⟨i + 1, by simp; omega, by omega, by simpa using h3, by omega⟩
        · rintro ⟨i, h1, h2, h3, h4⟩
          cases i with
          | zero =>
            simp only [List.getElem?_cons_zero, Option.some.injEq, Nat.add_zero] at h3 h4
            exact absurd ⟨h3, h4⟩ hc
          | succ i => exact ⟨i, by simp at h1; omega, by omega, by simpa using h3, by omega⟩
    · rename_i hp
      simp only [Bool.false_eq_true, false_iff]
      rintro ⟨i, h1, h2, -⟩
      omega

theorem colonIndex_append (a b : Str) (h : (58 : UInt8) ∉ a) : colonIndex (a ++ 58 :: b) = a.length := by
  induction a with
  | nil => simp [colonIndex]
  | cons c a ih =>
    simp at h
    have : ¬ c = 58 := fun e => h.1 e.symm
    simp [colonIndex, this, ih h.2]

theorem exists_split_colon {s : Str} (h : (58 : UInt8) ∈ s) : ∃ a b, s = a ++ 58 :: b ∧ (58 : UInt8) ∉ a := by
  induction s with
  | nil => simp at h
  | cons c s ih =>
    by_cases hc : c = 58
    · subst hc; exact ⟨[], s, by simp, by simp⟩
    · have : (58 : UInt8) ∈ s := by
        rcases List.mem_cons.1 h with h | h
        · exact absurd h.symm hc
        · exact h
      obtain ⟨a, b, e, ha⟩ := ih this
      refine ⟨c :: a, b, by simp [e], ?_⟩
      simp only [List.mem_cons, not_or]
      exact ⟨fun e => hc e.symm, ha⟩

/-- Text in braces. -/
theorem braces_of (s : Str) (h1 : s.head? = some 123) (h2 : s.getLast? = some 125) :
    ∃ inner, s = 123 :: inner ++ [125] := by
  cases s with
  | nil => simp at h1
  | cons c l =>
    simp at h1
    subst h1
    rcases List.eq_nil_or_concat l with rfl | ⟨inner, z, rfl⟩
    · simp at h2
    · have : z = 125 := by
        have := List.getLast?_concat (l := 123 :: inner) (a := z)
        rw [List.cons_append] at this
        rw [List.concat_eq_append] at h2
        rw [this] at h2
        simpa using h2
      exact ⟨inner, by simp [this]⟩

theorem colonsLoop_braces (inner : Str) :
    colonsLoop (inner.length + 2) 1 (inner ++ [125]) = true ↔
      inner.head? = some 58 ∨ inner.getLast? = some 58 := by
  rw [colonsLoop_true_iff]
  constructor
  · rintro ⟨i, h1, h2, h3, h4⟩
    have hi : i < inner.length := by omega
    rw [List.getElem?_append_left hi] at h3
    rcases h4 with h4 | h4
    · left
      have : i = 0 := by omega
      subst this
      rw [← h3]; exact List.head?_eq_getElem?
    · right
      have : i = inner.length - 1 := by omega
      subst this
      rw [List.getLast?_eq_getElem?]; exact h3
  · have hne : ∀ (i : Nat), inner[i]? = some 58 → i < inner.length := by
      intro i h
      rcases Nat.lt_or_ge i inner.length with h' | h'
      · exact h'
      · rw [List.getElem?_eq_none h'] at h; cases h
    rintro (h | h)
    · rw [List.head?_eq_getElem?] at h
      have := hne 0 h
      refine ⟨0, by simp, by omega, ?_, by omega⟩
      rw [List.getElem?_append_left this]; exact h
    · rw [List.getLast?_eq_getElem?] at h
      have := hne _ h
      refine ⟨inner.length - 1, by simp; omega, by omega, ?_, by omega⟩
      rw [List.getElem?_append_left this]; exact h

theorem validate_braces (inner : Str) :
    validatePathSegment (123 :: inner ++ [125]) = true ↔
      inner ≠ [] ∧ inner.head? ≠ some 58 ∧ inner.getLast? ≠ some 58 ∧ NoDoubleStar (123 :: inner ++ [125]) := by
  have hlast : ((123 : UInt8) :: (inner ++ [125])).getLast (List.cons_ne_nil _ _) = (125 : UInt8) := by
    rw [List.getLast_cons (by simp)]; simp
  simp only [List.cons_append, validatePathSegment, hlast]
  have hs := starsLoop_false_iff 0 (by omega) (123 :: (inner ++ [125]))
  simp only [List.length_cons, List.length_append, List.length_nil, Nat.zero_add]
  have hc := colonsLoop_braces inner
  have e1 : ¬ ((123 : UInt8) :: (inner ++ [125]) = b!"*" ∨ (123 : UInt8) :: (inner ++ [125]) = b!"**") := by
    simp
  rw [if_neg (by simp), if_neg (by simp)]
  by_cases h2 : inner = []
  · subst h2; simp
  · have hl : ¬ (inner.length + 1 + 1 = 2) := by
      have : 0 < inner.length := List.length_pos_iff.2 h2
      omega
    simp only [hl, false_or, true_and, h2, ne_eq, not_false_eq_true]
    by_cases h3 : colonsLoop (inner.length + 2) 1 (inner ++ [125]) = true
    · rw [if_pos h3]
      have := hc.1 h3
      simp only [Bool.false_eq_true, false_iff]
      rintro ⟨a, b, _⟩
      rcases this with h | h
      · exact a h
      · exact b h
    · rw [if_neg h3, if_neg e1]
      have h4 : ¬ (inner.head? = some 58 ∨ inner.getLast? = some 58) := fun h => h3 (hc.2 h)
      simp only [not_or] at h4
      simp only [Bool.not_eq_true', hs, h4.1, h4.2, not_false_eq_true, true_and]
      simp

theorem validate_plain (s : Str) (h : ¬ (s.head? = some 123 ∧ s.getLast? = some 125)) :
    validatePathSegment s = true ↔
      s ≠ [] ∧ s.head? ≠ some 123 ∧ s.getLast? ≠ some 125 ∧ (s = b!"**" ∨ NoDoubleStar s) := by
  cases s with
  | nil => simp [validatePathSegment]
  | cons c l =>
    have hg : (c :: l).getLast? = some ((c :: l).getLast (by simp)) := List.getLast?_eq_some_getLast (by simp)
    have hs := starsLoop_false_iff 0 (by omega) (c :: l)
    have hs' : starsLoop 0 (c :: l) = false ↔ NoDoubleStar (c :: l) := by simpa using hs
    simp only [validatePathSegment]
    rw [hg] at h ⊢
    generalize (c :: l).getLast (by simp) = z at h ⊢
    simp only [List.head?_cons, Option.some.injEq, ne_eq, reduceCtorEq, not_false_eq_true, true_and] at h ⊢
    by_cases h1 : c = 123
    · have h2 : ¬ z = 125 := fun e => h ⟨h1, e⟩
      simp [h1, h2]
    · by_cases h2 : z = 125
      · simp [h1, h2]
      · simp only [h1, h2, false_and, not_false_eq_true, true_and, if_false]
        by_cases h3 : c :: l = b!"*"
        · rw [if_pos (.inl h3), h3]
          simp only [true_iff]
          right
          rintro ⟨a, b, e⟩
          have := congrArg List.length e
          simp at this
          omega
        · by_cases h4 : c :: l = b!"**"
          · rw [if_pos (.inr h4)]; simp [h4]
          · rw [if_neg (by simp [h3, h4])]
            simp only [Bool.not_eq_true', hs', h4, false_or]

theorem not_contains_of {s : Str} {c : UInt8} : s.contains c = false ↔ c ∉ s := by simp

/-- Validation and construction of one segment implement the grammar. -/
theorem piece_iff (x : Ext) (ci : Bool) (v : Str) (seg : Segment) :
    (validatePathSegment v = true ∧ mkSegment x ci v = some seg) ↔
      Piece ci v seg ∧ (∀ src, seg.re = some src → x.compiles src = true) := by
  constructor
  · rintro ⟨hv, hm⟩
    by_cases hb : v.head? = some 123 ∧ v.getLast? = some 125
    · obtain ⟨inner, rfl⟩ := braces_of v hb.1 hb.2
      obtain ⟨h1, h2, h3, h4⟩ := (validate_braces inner).1 hv
      unfold mkSegment at hm
      by_cases hc : (58 : UInt8) ∈ inner
      · obtain ⟨name, re, e, hn⟩ := exists_split_colon hc
        subst e
        have hk : determineMatchType (123 :: (name ++ 58 :: re) ++ [125]) = .constraint := by
          unfold determineMatchType
          rw [if_neg (by simp), if_neg (by simp), if_pos hb, if_pos (by simp)]
        rw [hk] at hm
        dsimp only at hm
        have hi : colonIndex (123 :: (name ++ 58 :: re) ++ [125]) = name.length + 1 := by
          have := colonIndex_append (123 :: name) (re ++ [125]) (by
            simp only [List.mem_cons, not_or]; exact ⟨by decide, hn⟩)
          simpa using this
        have hsrc : List.drop (name.length + 1 + 1) (List.take ((123 :: (name ++ 58 :: re) ++ [125]).length - 1)
            (123 :: (name ++ 58 :: re) ++ [125])) = re := by
          have e1 : List.take ((123 :: (name ++ 58 :: re) ++ [125]).length - 1)
              (123 :: (name ++ 58 :: re) ++ [125]) = 123 :: (name ++ 58 :: re) := by
            rw [← List.dropLast_eq_take]; exact List.dropLast_concat
          rw [e1]
          simp
        have hname : List.drop 1 (List.take (name.length + 1) (123 :: (name ++ 58 :: re) ++ [125])) = name := by
          simp
        rw [hi, hsrc, hname] at hm
        have hne : name ≠ [] := by
          intro e; subst e; simp at h2
        have hre : re ≠ [] := by
          intro e; subst e; simp at h3
        have hrl : re.getLast? ≠ some 58 := by
          intro e
          apply h3
          rw [List.getLast?_append, List.getLast?_cons, e]; simp
        generalize hsr : (if ci = true then b!"(?i)" ++ re else re) = src0 at hm
        by_cases hcomp : x.compiles src0 = true
        · rw [if_pos hcomp] at hm
          simp only [Option.some.injEq] at hm
          subst hm
          subst hsr
          refine ⟨?_, ?_⟩
          · have := Piece.constraint (ci := ci) name re hne hn hre hrl (by simpa using h4)
            simpa using this
          · intro src hs
            simp only [Option.some.injEq] at hs
            rw [← hs]; exact hcomp
        · rw [if_neg hcomp] at hm; cases hm
      · have hk : determineMatchType (123 :: inner ++ [125]) = .capture := by
          unfold determineMatchType
          rw [if_neg (by simp), if_neg (by simp), if_pos hb, if_neg (by simpa using hc)]
        rw [hk] at hm
        dsimp only at hm
        have hname : List.drop 1 (List.take ((123 :: inner ++ [125]).length - 1) (123 :: inner ++ [125])) = inner := by
          have e1 : List.take ((123 :: inner ++ [125]).length - 1) (123 :: inner ++ [125]) = 123 :: inner := by
            rw [← List.dropLast_eq_take]; exact List.dropLast_concat
          rw [e1]; simp
        rw [hname] at hm
        simp only [Option.some.injEq] at hm
        subst hm
        exact ⟨.capture inner h1 hc h4, by simp⟩
    · obtain ⟨h1, h2, h3, h4⟩ := (validate_plain v hb).1 hv
      unfold mkSegment determineMatchType at hm
      by_cases e1 : v = b!"*"
      · subst e1; simp at hm; subst hm; exact ⟨.single, by simp⟩
      · by_cases e2 : v = b!"**"
        · subst e2; simp at hm; subst hm; exact ⟨.multiple, by simp⟩
        · rw [if_neg e1, if_neg e2, if_neg hb] at hm
          have h5 : NoDoubleStar v := h4.resolve_left e2
          by_cases e3 : v.any (fun c => c = 63 || c = 42) = true
          · rw [if_pos e3] at hm
            simp only [Option.some.injEq] at hm
            subst hm
            refine ⟨.regex v h2 h3 ?_ e1 h5, by simp⟩
            simp only [List.any_eq_true, Bool.or_eq_true, decide_eq_true_eq] at e3
            obtain ⟨c, hc, rfl | rfl⟩ := e3
            · exact .inr hc
            · exact .inl hc
          · rw [if_neg e3] at hm
            simp only [Option.some.injEq] at hm
            subst hm
            simp only [List.any_eq_true, Bool.or_eq_true, decide_eq_true_eq] at e3
            exact ⟨.literal v h1 h2 h3 (fun h => e3 ⟨42, h, .inr rfl⟩) (fun h => e3 ⟨63, h, .inl rfl⟩), by simp⟩
  · rintro ⟨hp, hc⟩
    cases hp with
    | single => exact ⟨by decide, by simp [mkSegment, determineMatchType]⟩
    | multiple => exact ⟨by decide, by simp [mkSegment, determineMatchType]⟩
    | constraint name re h1 h2 h3 h4 h5 =>
      have e : (123 :: name ++ 58 :: re ++ [125] : Str) = 123 :: (name ++ 58 :: re) ++ [125] := by simp
      constructor
      · rw [e, validate_braces]
        refine ⟨by simp, ?_, ?_, by simpa using h5⟩
        · cases name with
          | nil => exact absurd rfl h1
          | cons a n =>
            simp only [List.cons_append, List.head?_cons, ne_eq, Option.some.injEq]
            simp at h2; exact fun h => h2.1 h.symm
        · rw [List.getLast?_append, List.getLast?_cons]
          rcases List.eq_nil_or_concat re with rfl | ⟨r, z, rfl⟩
          · exact absurd rfl h3
          · simpa using h4
      · have hb : (123 :: (name ++ 58 :: re) ++ [125] : Str).head? = some 123 ∧
            (123 :: (name ++ 58 :: re) ++ [125] : Str).getLast? = some 125 := by
          refine ⟨by simp, List.getLast?_concat⟩
        rw [e]
        unfold mkSegment
        have hk : determineMatchType (123 :: (name ++ 58 :: re) ++ [125]) = .constraint := by
          unfold determineMatchType
          rw [if_neg (by simp), if_neg (by simp), if_pos hb, if_pos (by simp)]
        rw [hk]
        dsimp only
        have hi : colonIndex (123 :: (name ++ 58 :: re) ++ [125]) = name.length + 1 := by
          have := colonIndex_append (123 :: name) (re ++ [125]) (by
            simp only [List.mem_cons, not_or]; exact ⟨by decide, h2⟩)
          simpa using this
        have hsrc : List.drop (name.length + 1 + 1) (List.take ((123 :: (name ++ 58 :: re) ++ [125]).length - 1)
            (123 :: (name ++ 58 :: re) ++ [125])) = re := by
          have e1 : List.take ((123 :: (name ++ 58 :: re) ++ [125]).length - 1)
              (123 :: (name ++ 58 :: re) ++ [125]) = 123 :: (name ++ 58 :: re) := by
            rw [← List.dropLast_eq_take]; exact List.dropLast_concat
          rw [e1]
          simp
        have hname : List.drop 1 (List.take (name.length + 1) (123 :: (name ++ 58 :: re) ++ [125])) = name := by
          simp
        rw [hi, hsrc, hname]
        rw [if_pos (hc _ rfl)]
    | capture name h1 h2 h3 =>
      constructor
      · rw [validate_braces]
        refine ⟨h1, ?_, ?_, h3⟩
        · intro h
          exact h2 (List.mem_of_mem_head? h)
        · intro h
          exact h2 (List.mem_of_getLast? h)
      · have hb : (123 :: name ++ [125] : Str).head? = some 123 ∧ (123 :: name ++ [125] : Str).getLast? = some 125 :=
          ⟨by simp, List.getLast?_concat⟩
        unfold mkSegment
        have hk : determineMatchType (123 :: name ++ [125]) = .capture := by
          unfold determineMatchType
          rw [if_neg (by simp), if_neg (by simp), if_pos hb, if_neg (by simpa using h2)]
        rw [hk]
        dsimp only
        have hname : List.drop 1 (List.take ((123 :: name ++ [125]).length - 1) (123 :: name ++ [125])) = name := by
          have e1 : List.take ((123 :: name ++ [125]).length - 1) (123 :: name ++ [125]) = 123 :: name := by
            rw [← List.dropLast_eq_take]; exact List.dropLast_concat
          rw [e1]; simp
        rw [hname]
    | regex _ h1 h2 h3 h4 h5 =>
      have hb : ¬ (v.head? = some 123 ∧ v.getLast? = some 125) := fun h => h1 h.1
      constructor
      · rw [validate_plain v hb]
        refine ⟨?_, h1, h2, .inr h5⟩
        rintro rfl; simp at h3
      · have h6 : v ≠ b!"**" := by
          rintro rfl; exact h5 ⟨[], [], rfl⟩
        unfold mkSegment determineMatchType
        rw [if_neg h4, if_neg h6, if_neg hb, if_pos]
        simp only [List.any_eq_true, Bool.or_eq_true, decide_eq_true_eq]
        rcases h3 with h | h
        · exact ⟨42, h, .inr rfl⟩
        · exact ⟨63, h, .inl rfl⟩
    | literal _ h0 h1 h2 h3 h4 =>
      have hb : ¬ (v.head? = some 123 ∧ v.getLast? = some 125) := fun h => h1 h.1
      constructor
      · rw [validate_plain v hb]
        refine ⟨h0, h1, h2, .inr ?_⟩
        rintro ⟨a, b, e⟩
        exact h3 (by rw [e]; simp)
      · have h5 : v ≠ b!"*" := by rintro rfl; simp at h3
        have h6 : v ≠ b!"**" := by rintro rfl; simp at h3
        unfold mkSegment determineMatchType
        rw [if_neg h5, if_neg h6, if_neg hb, if_neg]
        simp only [List.any_eq_true, Bool.or_eq_true, decide_eq_true_eq]
        rintro ⟨c, hc, rfl | rfl⟩
        · exact h4 hc
        · exact h3 hc

end Gofre.Path
