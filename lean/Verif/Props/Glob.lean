import Verif.Proofs.GlobPanic

/-!
# C01–C04: wildcard segments

`Glob.regexSegmentMatch ci url pat` is the model of the matcher; it returns
`some (.ret b)`, `some .panic`, or `none` if it were still looping.
-/

namespace Gofre.Props
open Gofre.Glob Gofre.Spec

/-- C01: whatever is accepted is described by the wildcard. -/
theorem c01_accepts_only_described (ci : Bool) (pat url : Str) (hp : NoDoubleStar pat)
    (h : regexSegmentMatch ci url pat = some (.ret true)) :
    Glob (sameLetter ci) pat url :=
  Glob_of_M ((regexSegmentMatch_iff (NDS_of_NoDoubleStar hp)).1.1 h)

example : NoDoubleStar b!"a?b*ce*" ∧
    regexSegmentMatch true b!"AxBccex" b!"a?b*ce*" = some (.ret true) :=
  ⟨NoDoubleStar_of_NDS (by
    intro p
    match p with
    | 0 | 1 | 2 | 3 | 4 | 5 | 6 => decide
    | n + 7 => simp), by decide⟩

/-- C02 fails: `ab*` describes `ab` but does not accept it. -/
theorem c02_violated :
    ∃ pat url : Str, NoDoubleStar pat ∧ url ≠ [] ∧ Glob (sameLetter false) pat url ∧
      regexSegmentMatch false url pat ≠ some (.ret true) := by
  refine ⟨b!"ab*", b!"ab", NoDoubleStar_of_NDS ?_, by decide, ?_, by decide⟩
  · intro p
    match p with
    | 0 | 1 | 2 => decide
    | n + 3 => simp
  · exact .lit (by decide) (by decide) (.inl rfl)
      (.lit (by decide) (by decide) (.inl rfl) (.star [] .nil))

/-- C02 for patterns not ending in `*`: accepted exactly when described. -/
theorem c02_accepts_all_described_partial (ci : Bool) (pat url : Str) (hp : NoDoubleStar pat)
    (hlast : ∀ q, pat ≠ q ++ [42]) :
    regexSegmentMatch ci url pat = some (.ret true) ↔ Glob (sameLetter ci) pat url :=
  ⟨c01_accepts_only_described ci pat url hp, fun h =>
    (regexSegmentMatch_iff (NDS_of_NoDoubleStar hp)).1.2 (M_of_Glob hlast h)⟩

example : (∀ q, b!"*.html" ≠ q ++ [42]) ∧
    regexSegmentMatch false b!"a.html.html" b!"*.html" = some (.ret true) :=
  ⟨fun q h => by have := congrArg List.getLast? h; simp at this, by decide⟩

/-- C02 for patterns ending in `*`: accepted exactly when the rest of the pattern
describes the text with at least one character removed from its end. -/
theorem c02_trailing_star_partial (ci : Bool) (q url : Str) (hp : NoDoubleStar (q ++ [42])) :
    regexSegmentMatch ci url (q ++ [42]) = some (.ret true) ↔
      ∃ v w, url = v ++ w ∧ w ≠ [] ∧ Glob (sameLetter ci) q v := by
  rw [(regexSegmentMatch_iff (NDS_of_NoDoubleStar hp)).1]
  constructor
  · exact M_snoc_star_inv
  · rintro ⟨v, w, rfl, hw, h⟩
    exact M_snoc_star h hw

example : regexSegmentMatch false b!"abc" (b!"ab" ++ [42]) = some (.ret true) ∧
    regexSegmentMatch false b!"ab" (b!"ab" ++ [42]) = some (.ret false) := by decide

/-- C03 fails: the request segment `index.` crashes the wildcard `*.html`. -/
theorem c03_violated :
    ∃ pat url : Str, NoDoubleStar pat ∧ url ≠ [] ∧
      regexSegmentMatch false url pat = some .panic := by
  refine ⟨b!"*.html", b!"index.", NoDoubleStar_of_NDS ?_, by decide, by decide⟩
  intro p
  match p with
  | 0 | 1 | 2 | 3 | 4 | 5 => decide
  | n + 6 => simp

/-- C03: a crash needs a `*` that is not among the last two characters of the pattern and
whose next character accepts the last character of the text.  And a crash only ever
happens instead of the answer "no": a described text never crashes unless the wildcard
ends in `*` and matched nothing with it. -/
theorem c03_no_crash_partial (ci : Bool) (pat url : Str) (hp : NoDoubleStar pat)
    (h : regexSegmentMatch ci url pat = some .panic) :
    (∃ a d e b c, pat = a ++ 42 :: d :: e :: b ∧ url.getLast? = some c ∧
      (d = 63 ∨ sameLetter ci c d)) ∧
    ((∀ q, pat ≠ q ++ [42]) → ¬ Glob (sameLetter ci) pat url) := by
  have hn := NDS_of_NoDoubleStar hp
  constructor
  · obtain ⟨p, c, d, h1, h2, h3, h4, h5⟩ := panic_danger hn h
    have h6 : pat[p + 2]? = some pat[p + 2] := List.getElem?_eq_getElem h2
    refine ⟨pat.take p, d, pat[p + 2], pat.drop (p + 3), c, ?_, h4, runesMatches_iff.1 h5⟩
    conv => lhs; rw [← List.take_append_drop p pat, drop_cons h1, drop_cons h3, drop_cons h6]
  · intro hlast hg
    have := (c02_accepts_all_described_partial ci pat url hp hlast).2 hg
    rw [this] at h; simp at h

/-- C03: patterns whose only `*` are among their last two characters never crash. -/
theorem c03_safe_patterns_partial (ci : Bool) (pat url : Str) (hp : NoDoubleStar pat)
    (hs : ∀ a b, pat = a ++ 42 :: b → b.length ≤ 1) :
    ∃ b, regexSegmentMatch ci url pat = some (.ret b) := by
  cases h : regexSegmentMatch ci url pat with
  | none =>
    have := (regexSegmentMatch_iff (ci := ci) (url := url) (NDS_of_NoDoubleStar hp))
    rw [h] at this
    simp at this
  | some r =>
    cases r with
    | ret b => exact ⟨b, rfl⟩
    | panic =>
      obtain ⟨⟨a, d, e, b, c, h1, _⟩, _⟩ := c03_no_crash_partial ci pat url hp h
      have := hs a (d :: e :: b) h1
      simp at this

example : ∀ a b, b!"ab*c" = a ++ 42 :: b → b.length ≤ 1 := by
  intro a b h
  match a with
  | [] => simp at h
  | [_] => simp at h
  | [_, _] => simp at h; simp [← h.2.2]
  | [_, _, _] => simp at h
  | _ :: _ :: _ :: _ :: a => simp at h

/-- C03, exactly: the request crashes if and only if it is not described (for a wildcard ending in `*`:
not accepted, see C02), and the character after the last star whose beginning of the wildcard describes
a proper beginning of the text accepts the last character of the text. -/
theorem c03_exact (ci : Bool) (pat url : Str) (hp : NoDoubleStar pat) :
    regexSegmentMatch ci url pat = some .panic ↔
      ((∀ q, pat ≠ q ++ [42]) → ¬ Glob (sameLetter ci) pat url) ∧
      ∃ a d b c, pat = a ++ 42 :: d :: b ∧ Reaches (sameLetter ci) a url ∧
        (∀ a' b', pat = a' ++ 42 :: b' → a.length < a'.length → ¬ Reaches (sameLetter ci) a' url) ∧
        url.getLast? = some c ∧ (d = 63 ∨ sameLetter ci c d) := by
  have hn := NDS_of_NoDoubleStar hp
  have hreach : ∀ a b, pat = a ++ 42 :: b → (M ci (upTo pat a.length) url ↔ Reaches (sameLetter ci) a url) := by
    rintro a b rfl
    have : upTo (a ++ 42 :: b) a.length = a ++ [42] := by
      rw [upTo, List.take_append, List.take_of_length_le (by omega), show a.length + 1 - a.length = 1 by omega]; rfl
    rw [this]
    exact ⟨M_snoc_star_inv, fun ⟨v, w, h1, h2, h3⟩ => h1 ▸ M_snoc_star h3 h2⟩
  have hsplit : ∀ p, pat[p]? = some star → pat = pat.take p ++ 42 :: pat.drop (p + 1) ∧ (pat.take p).length = p := by
    intro p h
    have := lt_of_getElem?_some h
    refine ⟨?_, by rw [List.length_take]; omega⟩
    conv => lhs; rw [← List.take_append_drop p pat, drop_cons h]
  have hM : M ci pat url ↔ ((∀ q, pat ≠ q ++ [42]) ∧ Glob (sameLetter ci) pat url) ∨ ∃ q, pat = q ++ [42] ∧ Reaches (sameLetter ci) q url := by
    by_cases h : ∃ q, pat = q ++ [42]
    · obtain ⟨q, rfl⟩ := h
      have := hreach q [] rfl
      rw [show upTo (q ++ [42]) q.length = q ++ [42] from List.take_of_length_le (by simp)] at this
      rw [this]
      constructor
      · intro h; exact .inr ⟨q, rfl, h⟩
      · rintro (⟨h, _⟩ | ⟨q', h, h'⟩)
        · exact absurd rfl (h q)
        · obtain rfl : q = q' := by simpa using h
          exact h'
    · have h' : ∀ q, pat ≠ q ++ [42] := fun q hq => h ⟨q, hq⟩
      constructor
      · intro hm; exact .inl ⟨h', Glob_of_M hm⟩
      · rintro (⟨_, hg⟩ | ⟨q, hq, _⟩)
        · exact M_of_Glob h' hg
        · exact absurd hq (h' q)
  by_cases hm : M ci pat url
  · -- accepted
    rw [(regexSegmentMatch_iff hn).1.2 hm]
    simp only [Option.some.injEq, reduceCtorEq, false_iff, not_and]
    rintro h1 ⟨a, d, b, c, h2, h3, h4, _⟩
    rcases hM.1 hm with ⟨g1, g2⟩ | ⟨q, rfl, g2⟩
    · exact h1 g1 g2
    · refine h4 q [] rfl ?_ g2
      have := congrArg List.length h2
      simp at this; omega
  have hnot : (∀ q, pat ≠ q ++ [42]) → ¬ Glob (sameLetter ci) pat url := fun h1 h2 => hm (hM.2 (.inl ⟨h1, h2⟩))
  by_cases hstar : star ∈ pat
  · have hrun : regexSegmentMatch ci url pat = loop ci url pat (fuelFor url pat) ⟨0, 0, false, none⟩ := by
      unfold regexSegmentMatch; rw [if_neg (by simp [hstar])]
    -- the last reached star, if any
    have hlastReached : (∀ i, pat[i]? = some star → ¬ M ci (upTo pat i) url) ∨
        ∃ i, pat[i]? = some star ∧ M ci (upTo pat i) url ∧ ∀ j, i < j → pat[j]? = some star → ¬ M ci (upTo pat j) url := by
      by_cases h : ∃ i, pat[i]? = some star ∧ M ci (upTo pat i) url
      · right
        obtain ⟨i, h1, h2⟩ := h
        generalize hk : pat.length - i = k
        induction k using Nat.strongRecOn generalizing i with
        | ind k ih =>
          by_cases h3 : ∃ j, i < j ∧ pat[j]? = some star ∧ M ci (upTo pat j) url
          · obtain ⟨j, j1, j2, j3⟩ := h3
            have := lt_of_getElem?_some j2
            exact ih (pat.length - j) (by omega) j j2 j3 rfl
          · exact ⟨i, h1, h2, fun j j1 j2 j3 => h3 ⟨j, j1, j2, j3⟩⟩
      · left
        intro i h1 h2
        exact h ⟨i, h1, h2⟩
    rcases hlastReached with hno | ⟨i, hi, hr, hmax⟩
    · -- no star is reached: the part before the first star fails
      have hres : regexSegmentMatch ci url pat ≠ some .panic := by
        have hfirst : ∃ j, pat[j]? = some star ∧ ∀ p : Nat, p < j → pat[p]? ≠ some star := by
          obtain ⟨j, hj⟩ := List.mem_iff_getElem?.1 hstar
          induction j using Nat.strongRecOn with
          | ind j ih =>
            by_cases h3 : ∃ p, p < j ∧ pat[p]? = some star
            · obtain ⟨p, p1, p2⟩ := h3; exact ih p p1 p2
            · exact ⟨j, hj, fun p p1 p2 => h3 ⟨p, p1, p2⟩⟩
        obtain ⟨j, hj, hbefore⟩ := hfirst
        rw [hrun, loop_upTo_eq hn hj (Nat.le_refl _) (hno j hj)]
        intro hpanic
        obtain ⟨p, _, _, h1, h2, _⟩ := loop_panic (upTo_nds hn) _ (init_Inv ci url _) (by intro a b hab; simp at hab) hpanic
        rw [upTo_length (lt_of_getElem?_some hj)] at h2
        rw [upTo_get (by omega)] at h1
        exact hbefore p (by omega) h1
      refine ⟨fun h => absurd h hres, ?_⟩
      rintro ⟨_, a, d, b, c, h2, h3, _⟩
      exact absurd ((hreach a (d :: b) h2).2 h3) (hno a.length (by rw [h2]; simp))
    · obtain ⟨e1, e2⟩ := hsplit i hi
      have hil : i + 1 < pat.length := by
        apply Decidable.byContradiction
        intro hlt
        have := lt_of_getElem?_some hi
        apply hm
        have : upTo pat i = pat := by rw [upTo]; exact List.take_of_length_le (by omega)
        rwa [this] at hr
      have hd : pat[i + 1]? = some pat[i + 1] := List.getElem?_eq_getElem hil
      have hne : url ≠ [] := by
        rintro rfl
        have := M_nil_right hr
        have := congrArg List.length this
        rw [upTo_length (by omega)] at this
        simp at this
      have hc : url.getLast? = some (url.getLast hne) := List.getLast?_eq_some_getLast hne
      have hiff := panic_iff_at hn hi hd hc hr hmax hm (Nat.le_refl _)
      rw [hrun, hiff, runesMatches_iff]
      constructor
      · intro h
        refine ⟨hnot, pat.take i, pat[i + 1], pat.drop (i + 2), _, ?_, ?_, ?_, hc, h⟩
        · conv => lhs; rw [e1, drop_cons hd]
        · rw [← hreach _ _ e1, e2]; exact hr
        · intro a' b' h1 h2 h3
          rw [e2] at h2
          exact hmax a'.length h2 (by rw [h1]; simp) ((hreach a' b' h1).2 h3)
      · rintro ⟨_, a, d, b, c, h2, h3, h4, h5, h6⟩
        rw [hc] at h5
        injection h5 with h5
        subst h5
        have ha : pat[a.length]? = some star := by rw [h2]; simp
        have hai : a.length = i := by
          rcases Nat.lt_trichotomy a.length i with h | h | h
          · exact absurd ((hreach _ _ e1).1 (by rw [e2]; exact hr)) (h4 _ _ e1 (by rw [e2]; exact h))
          · exact h
          · exact absurd ((hreach a _ h2).2 h3) (hmax _ h ha)
        have : pat[i + 1]? = some d := by rw [← hai, h2]; simp
        rw [hd] at this
        injection this with this
        rw [this]; exact h6
  · -- no star: no crash
    constructor
    · intro h
      obtain ⟨p, _, _, h1, _⟩ := panic_danger hn h
      exact absurd (List.mem_of_getElem? h1) hstar
    · rintro ⟨_, a, d, b, c, rfl, _⟩
      exact absurd (by simp) hstar

/-- `*.html`: exactly the texts ending in a dot crash. -/
example (url : Str) : regexSegmentMatch false url b!"*.html" = some .panic ↔ url.getLast? = some 46 := by
  have hp : NoDoubleStar b!"*.html" := NoDoubleStar_of_NDS (by
    intro p
    match p with
    | 0 | 1 | 2 | 3 | 4 | 5 => decide
    | n + 6 => simp)
  rw [c03_exact false _ _ hp]
  constructor
  · rintro ⟨_, a, d, b, c, h1, _, _, h4, h5⟩
    match a with
    | [] =>
      simp at h1
      obtain ⟨rfl, _⟩ := h1
      rw [h4]
      simpa [sameLetter] using h5
    | [_] | [_, _] | [_, _, _] | [_, _, _, _] | [_, _, _, _, _] => simp at h1
    | _ :: _ :: _ :: _ :: _ :: _ :: a => simp at h1
  · intro h
    refine ⟨fun _ hg => ?_, [], 46, b!"html", 46, rfl, ⟨[], url, rfl, fun h0 => by simp [h0] at h, .nil⟩, ?_, h, .inr (.inl rfl)⟩
    · have hlast : ∀ {p u : Str} {x : UInt8}, Glob (sameLetter false) (p ++ [x]) u → x ≠ 42 → x ≠ 63 → u.getLast? = some x := by
        intro p
        induction p with
        | nil =>
          intro u x hg h1 h2
          cases hg with
          | any => simp at h2
          | star => simp at h1
          | @lit _ _ _ uc _ _ hm hg =>
            cases hg
            have : uc = x := by simpa [sameLetter] using hm
            simp [this]
        | cons y p ih =>
          intro u x hg h1 h2
          cases hg with
          | any hg => rw [List.getLast?_cons, ih hg h1 h2]; rfl
          | star w hg => rw [List.getLast?_append, ih hg h1 h2]; rfl
          | lit _ _ _ hg => rw [List.getLast?_cons, ih hg h1 h2]; rfl
      have := hlast (p := b!"*.htm") (x := 108) hg (by decide) (by decide)
      rw [h] at this
      simp at this
    · intro a' b' h1 h2 _
      match a' with
      | [] => simp at h2
      | [_] | [_, _] | [_, _, _] | [_, _, _, _] | [_, _, _, _, _] => simp at h1
      | _ :: _ :: _ :: _ :: _ :: _ :: a => simp at h1

/-- C04: the loop always finishes — for every pattern, even ones with adjacent stars — and
so the answer is never "still looping". -/
theorem c04_terminates (ci : Bool) (pat url : Str) :
    ∃ r, regexSegmentMatch ci url pat = some r := by
  unfold regexSegmentMatch
  split
  · exact ⟨_, rfl⟩
  · exact loop_terminates _ _ (init_TInv pat url.length) (init_measure url pat)

/-- C04, in terms of iterations: from any number of iterations at least the stated bound
the loop has finished with the same answer. -/
theorem c04_bound (ci : Bool) (pat url : Str) (f : Nat)
    (hf : ((pat.length + 1) * (url.length + 2) + 1) * (2 * pat.length + 3) ≤ f) :
    ∃ r, loop ci url pat f ⟨0, 0, false, none⟩ = some r :=
  loop_terminates _ _ (init_TInv pat url.length)
    (Nat.lt_of_lt_of_le (init_measure url pat) hf)

example : regexSegmentMatch false b!"aaab" b!"*a*ab" = some (.ret true) := by decide

end Gofre.Props
