import Verif.Proofs.Chars
import Verif.Props.Exact
import Verif.Props.Route

/-! # C139: wildcards and characters -/

namespace Gofre.Props
open Gofre.Path Gofre.Glob Gofre.Spec Gofre.Chars

/-- C139: where every `?` is matched with one-byte characters only and, if the case does not matter, the
wildcard is ASCII, a wildcard accepts only texts that it describes character by character. -/
theorem c139_only_partial (ci : Bool) (P U : List Char) (hp : NoDoubleStar (enc P)) (hF : Fair ci P U)
    (h : regexSegmentMatch ci (enc U) (enc P) = some (.ret true)) : Wild (SameChar ci) P U :=
  (glob_iff_wild hF).1 (c01_accepts_only_described ci _ _ hp h)

theorem enc_append (a b : List Char) : enc (a ++ b) = enc a ++ enc b := by simp [enc]

theorem enc_last {P : List Char} (h : ∀ Q, P ≠ Q ++ ['*']) : ∀ q, enc P ≠ q ++ [42] := by
  intro q e
  cases hl : P.getLast? with
  | none =>
    rw [List.getLast?_eq_none_iff] at hl
    subst hl
    simp [enc] at e
  | some c =>
    obtain ⟨Q, rfl⟩ := List.getLast?_eq_some_iff.1 hl
    have hc : c ≠ '*' := fun hc => h Q (by rw [hc])
    rw [enc_append, enc_cons, enc_nil, List.append_nil] at e
    have hm : (42 : UInt8) ∈ String.utf8EncodeChar c := by
      obtain ⟨f, t, hb, _⟩ := char_bytes c
      have := congrArg List.getLast? e
      rw [List.getLast?_append, List.getLast?_concat] at this
      cases hg : (String.utf8EncodeChar c).getLast? with
      | none => rw [List.getLast?_eq_none_iff, hb] at hg; cases hg
      | some y =>
        rw [hg] at this
        obtain rfl : y = 42 := by simpa using this
        exact List.mem_of_getLast? hg
    by_cases hq : c = '?'
    · subst hq; revert hm; decide
    · exact absurd rfl (enc_ne hq hc 42 hm).2

/-- C139: and if it does not end in `*` it accepts exactly those. -/
theorem c139_exactly_partial (ci : Bool) (P U : List Char) (hp : NoDoubleStar (enc P)) (hF : Fair ci P U) (hlast : ∀ Q, P ≠ Q ++ ['*']) :
    regexSegmentMatch ci (enc U) (enc P) = some (.ret true) ↔ Wild (SameChar ci) P U := by
  rw [c02_accepts_all_described_partial ci _ _ hp (enc_last hlast)]
  exact glob_iff_wild hF

/-- C139: a wildcard that ends in `*` accepts what continues, by at least one character, a text described by the rest of it. -/
theorem c139_open_partial (ci : Bool) (Q V W : List Char) (hp : NoDoubleStar (enc (Q ++ ['*']))) (hF : Fair ci Q V) (hW : W ≠ [])
    (h : Wild (SameChar ci) Q V) : regexSegmentMatch ci (enc (V ++ W)) (enc (Q ++ ['*'])) = some (.ret true) := by
  have e : enc (Q ++ ['*']) = enc Q ++ [42] := by rw [enc_append, enc_cons, short_bytes (by decide)]; rfl
  rw [e] at hp ⊢
  rw [c02_trailing_star_partial ci _ _ hp]
  refine ⟨enc V, enc W, enc_append _ _, ?_, (glob_iff_wild hF).2 h⟩
  cases W with
  | nil => exact absurd rfl hW
  | cons c W =>
    obtain ⟨f, t, hb, _⟩ := char_bytes c
    rw [enc_cons, hb]; simp

theorem glob_length {eqv : UInt8 → UInt8 → Prop} {p u : Str} (h : Glob eqv p u) (hs : 42 ∉ p) : u.length = p.length := by
  induction h with
  | nil => rfl
  | any _ ih => simp [ih fun hm => hs (List.mem_cons_of_mem _ hm)]
  | star _ _ _ => simp at hs
  | lit _ _ _ _ ih => simp [ih fun hm => hs (List.mem_cons_of_mem _ hm)]

theorem wild_length {p u : List Char} (h : Wild (SameChar false) p u) (hs : '*' ∉ p) : (enc p).length ≤ (enc u).length := by
  induction h with
  | nil => simp [enc]
  | @any p u c _ ih =>
    have := ih fun hm => hs (List.mem_cons_of_mem _ hm)
    rw [enc_cons, enc_cons, short_bytes (by decide)]
    obtain ⟨f, t, hb, _⟩ := char_bytes c
    rw [hb]; simp; omega
  | star _ _ _ => simp at hs
  | @lit p u pc uc _ _ h3 _ ih =>
    have := ih fun hm => hs (List.mem_cons_of_mem _ hm)
    rcases h3 with rfl | ⟨h3, _⟩
    · rw [enc_cons, enc_cons]; simp; omega
    · cases h3

theorem enc_star {P : List Char} (h : '*' ∉ P) : 42 ∉ enc P := by
  induction P with
  | nil => simp [enc]
  | cons c P ih =>
    rw [enc_cons, List.mem_append]
    rintro (hm | hm)
    · have hc : c ≠ '*' := fun e => h (by simp [e])
      by_cases hq : c = '?'
      · subst hq; revert hm; decide
      · exact absurd rfl (enc_ne hq hc 42 hm).2
    · exact ih (fun h' => h (List.mem_cons_of_mem _ h')) hm

/-- C139 fails: a wildcard of characters and `?` refuses every text that has a character of several bytes at the place of a
`?`, although it describes it. -/
theorem c139_violated_never (A B V W : List Char) (c : Char) (hc : ¬ Short c) (hA : Wild (SameChar false) A V) (hB : Wild (SameChar false) B W)
    (hs : '*' ∉ A ++ B) (hp : NoDoubleStar (enc (A ++ '?' :: B))) :
    Wild (SameChar false) (A ++ '?' :: B) (V ++ c :: W) ∧
      regexSegmentMatch false (enc (V ++ c :: W)) (enc (A ++ '?' :: B)) ≠ some (.ret true) := by
  constructor
  · clear hp
    induction hA with
    | nil => exact .any hB
    | any _ ih => exact .any (ih fun h => hs (by simp at h ⊢; grind))
    | star _ _ _ => simp at hs
    | lit h1 h2 h3 _ ih => exact .lit h1 h2 h3 (ih fun h => hs (by simp at h ⊢; grind))
  · intro h
    have hg := c01_accepts_only_described _ _ _ hp h
    have hA' : '*' ∉ A := fun h => hs (by simp [h])
    have hB' : '*' ∉ B := fun h => hs (by simp [h])
    have hl := glob_length hg (enc_star (by simp; exact ⟨hA', hB'⟩))
    have h1 := wild_length hA hA'
    have h2 := wild_length hB hB'
    rw [enc_append, enc_append, enc_cons, enc_cons, short_bytes (c := '?') (by decide)] at hl
    simp only [List.length_append, List.length_singleton, String.length_utf8EncodeChar] at hl
    have h3 : c.utf8Size ≠ 1 := by
      rw [ne_eq, Char.utf8Size_eq_one_iff]
      intro h
      exact hc (Nat.lt_succ_of_le (UInt32.le_iff_toNat_le.1 h))
    have := Char.utf8Size_pos c
    omega

theorem nds {s : Str} (h : (List.range s.length).all fun i => !(s[i]? == some 42 && s[i + 1]? == some 42)) : NoDoubleStar s := by
  rintro ⟨a, b, rfl⟩
  have := List.all_eq_true.1 h a.length (by simp)
  simp at this

/-- `caf?` does not accept `café`. -/
example : (¬ Short 'é') ∧ Wild (SameChar false) "caf".toList "caf".toList ∧ NoDoubleStar (enc "caf?".toList) ∧
    regexSegmentMatch false (enc "café".toList) (enc "caf?".toList) = some (.ret false) :=
  ⟨by decide, .lit (by decide) (by decide) (.inl rfl) (.lit (by decide) (by decide) (.inl rfl) (.lit (by decide) (by decide) (.inl rfl) .nil)),
    nds (by decide), by decide +kernel⟩

theorem wild_count {same : Char → Char → Prop} {p u : List Char} (h : Wild same p u) (hs : '*' ∉ p) : u.length = p.length := by
  induction h with
  | nil => rfl
  | any _ ih => simp [ih fun hm => hs (List.mem_cons_of_mem _ hm)]
  | star _ _ _ => simp at hs
  | lit _ _ _ _ ih => simp [ih fun hm => hs (List.mem_cons_of_mem _ hm)]

/-- C139 fails: `caf??` accepts `café`, which has no fifth character. -/
theorem c139_violated : ∃ P U : List Char, NoDoubleStar (enc P) ∧ regexSegmentMatch false (enc U) (enc P) = some (.ret true) ∧
    ∀ same, ¬ Wild same P U :=
  ⟨"caf??".toList, "café".toList, nds (by decide), by decide +kernel, fun _ h => absurd (wild_count h (by decide)) (by decide)⟩

/-- C139 fails: when the case does not matter, `ã*` accepts `㣀`, which does not begin with that letter. -/
theorem c139_violated_other_letter : ∃ P U : List Char, NoDoubleStar (enc P) ∧ '?' ∉ P ∧
    regexSegmentMatch true (enc U) (enc P) = some (.ret true) ∧ ∀ same, ¬ same '㣀' 'ã' → ¬ Wild same P U := by
  refine ⟨['ã', '*'], ['㣀'], nds (by decide), by decide, by decide +kernel, fun same hn h => ?_⟩
  generalize hp : ['ã', '*'] = p at h
  generalize hu : ['㣀'] = u at h
  cases h with
  | nil => cases hp
  | any _ => simp at hp
  | star _ _ => simp at hp
  | lit _ _ h3 _ =>
    rw [← (List.cons.inj hp).1, ← (List.cons.inj hu).1] at h3
    exact hn h3

/-- C139 fails: when the case does not matter, `É*` refuses `és`. -/
theorem c139_violated_case : ∃ P U : List Char, NoDoubleStar (enc P) ∧ '?' ∉ P ∧
    regexSegmentMatch true (enc U) (enc P) = some (.ret false) ∧ ∀ same, same 'é' 'É' → Wild same P U :=
  ⟨['É', '*'], ['é', 's'], nds (by decide), by decide, by decide +kernel,
    fun _ h => .lit (by decide) (by decide) h (.star ['s'] .nil)⟩

/-- The same for whole requests: `/ã*` takes a request with another letter when the case does not matter, `/É*` does not take one
in small letters, and `/caf?` does not take `/café`. -/
example : (served plainExt true [(b!"/ã*", 1)] b!"/㣀" freshBuf 10).isSome ∧
    served plainExt true [(b!"/ã*", 1)] b!"/㣀" freshBuf 10 ≠ some .none ∧
    served plainExt true [(b!"/É*", 1)] b!"/és" freshBuf 10 = some .none ∧
    served plainExt false [(b!"/caf?", 1)] b!"/café" freshBuf 10 = some .none := by decide +kernel

/-- A wildcard with characters of several bytes, matched exactly. -/
example : Fair false "ã*é".toList "ãbcé".toList ∧ NoDoubleStar (enc "ã*é".toList) ∧ (∀ Q, "ã*é".toList ≠ Q ++ ['*']) ∧
    Wild (SameChar false) "ã*é".toList "ãbcé".toList := by
  refine ⟨⟨fun h => absurd h (by decide), fun h => by cases h⟩, nds (by decide), fun Q h => ?_, ?_⟩
  · have := congrArg List.getLast? h
    rw [List.getLast?_concat] at this
    exact absurd this (by decide)
  · exact .lit (by decide) (by decide) (.inl rfl) (.star ['b', 'c'] (.lit (by decide) (by decide) (.inl rfl) .nil))

/-- A wildcard ending in `*`, and one in which the case does not matter. -/
example : Fair false ['é', '-'] ['é', '-'] ∧ NoDoubleStar (enc (['é', '-'] ++ ['*'])) ∧ Wild (SameChar false) ['é', '-'] ['é', '-'] ∧
    Fair true ['A', '*'] ['a', 'é'] ∧ NoDoubleStar (enc ['A', '*']) ∧
    regexSegmentMatch true (enc ['a', 'é']) (enc ['A', '*']) = some (.ret true) := by
  refine ⟨⟨fun h => absurd h (by decide), fun h => by cases h⟩, nds (by decide),
    .lit (by decide) (by decide) (.inl rfl) (.lit (by decide) (by decide) (.inl rfl) .nil),
    ⟨fun h => absurd h (by decide), fun _ => by decide⟩, nds (by decide), by decide +kernel⟩

end Gofre.Props
