import Verif.Proofs.Glob

/-! # Exactly when the wildcard matcher panics -/

namespace Gofre.Glob
open Gofre.Spec

/-- The pattern up to and including position `j`. -/
def upTo (pat : Str) (j : Nat) : Str := pat.take (j + 1)

theorem upTo_get {pat : Str} {j p : Nat} (h : p ≤ j) : (upTo pat j)[p]? = pat[p]? := by
  rw [upTo, List.getElem?_take, if_pos (by omega)]

theorem upTo_length {pat : Str} {j : Nat} (h : j < pat.length) : (upTo pat j).length = j + 1 := by
  rw [upTo, List.length_take]; omega

theorem upTo_nds {pat : Str} {j : Nat} (hn : NDS pat) : NDS (upTo pat j) := by
  intro p h1 h2
  have b1 := lt_of_getElem?_some h1
  have b2 := lt_of_getElem?_some h2
  rw [upTo, List.length_take] at b1 b2
  rw [upTo_get (by omega)] at h1 h2
  exact hn p h1 h2

/-- Before position `j` the shortened pattern behaves like the whole one. -/
theorem body_upTo {ci} {url pat : Str} {j p u : Nat} {cp} (hn : NDS pat) (hj : j < pat.length) (hp : p < j) :
    body ci url pat p u cp = body ci url (upTo pat j) p u cp := by
  unfold body
  rw [upTo_get (by omega)]
  split
  · rfl
  split
  · rfl
  rename_i pc hpc
  split
  · rfl
  split
  · rename_i hs
    subst hs
    have hpc' : (upTo pat j)[p]? = some star := by rw [upTo_get (by omega)]; exact hpc
    simp only [skipStars_nds hn hpc, skipStars_nds (upTo_nds hn) hpc', upTo_length hj]
    rw [if_neg (by omega), if_neg (by omega), upTo_get (by omega)]
  · rfl

/-- What follows an iteration. -/
def cont (ci : Bool) (url pat : Str) (f : Nat) : Step → Option Res
  | .done r => some r
  | .next s' => loop ci url pat f s'

theorem loop_cont {ci} {url pat : Str} {f : Nat} {s : St} : loop ci url pat (f + 1) s = cont ci url pat f (step ci url pat s) := by
  rw [loop]; cases step ci url pat s <;> rfl

/-- What a run on the whole pattern does when the run on the shortened one has finished with `r`. -/
def After (ci : Bool) (url pat : Str) (j f : Nat) (s : St) (r : Res) : Prop :=
  if r = .ret true then
    ∃ u cp f', u < url.length ∧ loop ci url pat f s = cont ci url pat f' (body ci url pat j u cp)
  else loop ci url pat f s = some r

/-- A star ends the shortened pattern. -/
theorem body_last {ci} {url pat : Str} {j u : Nat} {cp} (hn : NDS pat) (hj : pat[j]? = some star) (hu : u < url.length) :
    body ci url (upTo pat j) j u cp = .done (.ret true) := by
  have hl := lt_of_getElem?_some hj
  have hj' : (upTo pat j)[j]? = some star := by rw [upTo_get (by omega)]; exact hj
  unfold body
  rw [List.getElem?_eq_getElem hu, hj']
  simp only [skipStars_nds (upTo_nds hn) hj', upTo_length hl]
  rw [if_neg (by decide), if_pos trivial, if_pos (by omega)]

theorem loop_upTo {ci} {url pat : Str} {j : Nat} (hn : NDS pat) (hj : pat[j]? = some star) :
    ∀ (f : Nat) {s : St} {r : Res}, Inv ci url (upTo pat j) s → s.p ≤ j → loop ci url (upTo pat j) f s = some r → After ci url pat j f s r
  | 0, _, _, _, _, h => by simp [loop] at h
  | f + 1, s, r, hI, hp, h => by
    have hl := lt_of_getElem?_some hj
    have hlen := upTo_length hl
    have hun := upTo_nds (j := j) hn
    have huLe := hI.uLe
    have hg := step_good hun hI
    -- the body that both runs execute
    have key : ∀ (p u : Nat), p ≤ j → u ≤ url.length → (p = j → u < url.length) →
        step ci url (upTo pat j) s = body ci url (upTo pat j) p u s.cp → step ci url pat s = body ci url pat p u s.cp → After ci url pat j (f + 1) s r := by
      intro p u hpj hu hpu e1 e2
      by_cases hpe : p = j
      · subst hpe
        have hb := body_last (ci := ci) (cp := s.cp) hn hj (hpu rfl)
        rw [loop, e1, hb] at h
        simp only [Option.some.injEq] at h
        subst h
        rw [After, if_pos rfl]
        refine ⟨u, s.cp, f, hpu rfl, ?_⟩
        rw [loop_cont, e2]
      · have hb := body_upTo (ci := ci) (url := url) (u := u) (cp := s.cp) hn hl (show p < j by omega)
        rw [hb, ← e1] at e2
        rw [loop] at h
        cases hs : step ci url (upTo pat j) s with
        | done r' =>
          rw [hs] at h e2
          simp only [Option.some.injEq] at h
          subst h
          have hne : r' ≠ .ret true := by
            intro hr
            rw [hr, e1] at hs
            unfold body at hs
            split at hs
            · simp at hs
            split at hs
            · simp at hs
            rename_i pc hpc
            split at hs
            · simp at hs
            split at hs
            · rename_i hst
              subst hst
              simp only [skipStars_nds hun hpc] at hs
              rw [if_neg (by omega)] at hs
              split at hs
              · simp at hs
              · split at hs <;> simp at hs
            split at hs <;> simp at hs
          rw [After, if_neg hne, loop, e2]
        | next s' =>
          rw [hs] at h e2 hg
          have hp' : s'.p ≤ j := by
            have h1 : body ci url (upTo pat j) p u s.cp = .next s' := by rw [← e1, hs]
            unfold body at h1
            split at h1
            · simp at h1
            split at h1
            · simp at h1
            rename_i pc hpc
            split at h1
            · simp at h1; subst h1; simp only; omega
            split at h1
            · rename_i hst
              subst hst
              simp only [skipStars_nds hun hpc] at h1
              split at h1
              · simp at h1
              split at h1
              · simp at h1
              · split at h1 <;> (simp at h1; subst h1; simp only; omega)
            split at h1 <;> (simp at h1; subst h1; simp only; omega)
          have ih := loop_upTo hn hj f hg.1 hp' h
          unfold After at ih ⊢
          rw [show loop ci url pat (f + 1) s = loop ci url pat f s' by rw [loop, e2]]
          exact ih
    unfold After
    by_cases hre : s.restore = true ∨ s.u = url.length
    · cases hcp : s.cp with
      | none =>
        have e1 : step ci url (upTo pat j) s = .done (.ret false) := by
          unfold step
          rw [if_neg (by omega), if_pos (by rcases hre with h | h <;> simp [h]), hcp]
        have e2 : step ci url pat s = .done (.ret false) := by
          unfold step
          rw [if_neg (by omega), if_pos (by rcases hre with h | h <;> simp [h]), hcp]
        rw [loop, e1] at h
        simp only [Option.some.injEq] at h
        subst h
        rw [if_neg (by simp), loop, e2]
      | some x =>
        obtain ⟨pc, uc⟩ := x
        obtain ⟨h1, h2, h3, h4, h5, h6⟩ := hI.cp pc uc hcp
        refine key pc (uc + 1) (by omega) (by omega) (by omega) ?_ ?_
        · unfold step
          rw [if_neg (by omega), if_pos (by rcases hre with h | h <;> simp [h]), hcp]
        · unfold step
          rw [if_neg (by omega), if_pos (by rcases hre with h | h <;> simp [h]), hcp]
    · have hre' := not_or.1 hre
      refine key s.p s.u hp huLe (by omega) ?_ ?_
      · unfold step
        rw [if_neg (by omega), if_neg (not_or.2 ⟨hre'.1, not_or.2 ⟨by omega, hre'.2⟩⟩)]
      · unfold step
        rw [if_neg (by omega), if_neg (not_or.2 ⟨hre'.1, not_or.2 ⟨by omega, hre'.2⟩⟩)]

/-- From the last star on, a run that does not accept panics exactly when the last byte of the text is accepted by the byte after the star. -/
theorem loop_last {ci} {url pat : Str} (hn : NDS pat) {i : Nat} {d c : UInt8} (hd : pat[i + 1]? = some d) (hc : url.getLast? = some c)
    (hlast : ∀ p, i < p → pat[p]? = some star → p + 1 = pat.length) :
    ∀ (f : Nat) {s : St} {uc : Nat} {r : Res}, Inv ci url pat s → CpOk ci url pat s → s.cp = some (i, uc) → loop ci url pat f s = some r → r ≠ .ret true →
      (r = .panic ↔ runesMatches ci c d = true)
  | 0, _, _, _, _, _, _, h, _ => by simp [loop] at h
  | f + 1, s, uc, r, hI, hk, hcp, h, hne => by
    obtain ⟨h1, h2, h3, h4, h5, h6⟩ := hI.cp i uc hcp
    have hg := step_good hn hI
    have hpLe := hI.pLe
    have huLe := hI.uLe
    rw [List.getLast?_eq_getElem?] at hc
    have hc' := lt_of_getElem?_some hc
    -- a continuing step that keeps the checkpoint's star
    have hnext : ∀ s' uc', step ci url pat s = .next s' → s'.cp = some (i, uc') → (r = .panic ↔ runesMatches ci c d = true) := by
      intro s' uc' e e'
      rw [e] at hg
      rw [loop, e] at h
      exact loop_last hn hd (by rw [List.getLast?_eq_getElem?]; exact hc) hlast f hg.1 (step_CpOk hk e) e' h hne
    by_cases h0 : s.p = pat.length ∧ s.u = url.length
    · exfalso
      apply hne
      rw [loop, step, if_pos h0] at h
      simpa using h.symm
    by_cases hre : s.restore = true ∨ s.p = pat.length ∨ s.u = url.length
    · have e : step ci url pat s = body ci url pat i (uc + 1) s.cp := by
        unfold step; rw [if_neg h0, if_pos hre, hcp]
      by_cases hu : uc + 1 < url.length
      · unfold body at e
        rw [List.getElem?_eq_getElem hu, h1] at e
        simp only [skipStars_nds hn h1] at e
        rw [if_neg (by decide), if_pos trivial, if_neg (by omega), hd] at e
        simp only at e
        cases hsc : scan ci d (url.drop (uc + 1)) (uc + 1) with
        | some u' => rw [hsc] at e; exact hnext _ _ e rfl
        | none =>
          rw [hsc] at e
          have hno := (scan_spec url (uc + 1)).2 hsc (url.length - 1) c (by omega) hc
          rw [loop, e] at h
          have : r = .ret false := by
            cases f with
            | zero => simp [loop] at h
            | succ f =>
              simp only [loop] at h
              have : step ci url pat ⟨i, url.length, false, none⟩ = .done (.ret false) := by
                unfold step
                rw [if_neg (by simp only; omega), if_pos (by simp)]
              rw [this] at h
              simpa using h.symm
          simp [this, hno]
      · have e' : step ci url pat s = .done .panic := by
          rw [e]; unfold body; rw [List.getElem?_eq_none (by omega)]
        rw [loop, e'] at h
        simp only [Option.some.injEq] at h
        subst h
        obtain ⟨c', d', k1, k2, k3⟩ := hk i uc hcp
        rw [hd] at k2
        have : uc = url.length - 1 := by omega
        subst this
        rw [hc] at k1
        simp only [Option.some.injEq] at k1 k2
        subst k1 k2
        simp [k3]
    · have hre' := not_or.1 hre
      have hre2 := not_or.1 hre'.2
      have e : step ci url pat s = body ci url pat s.p s.u s.cp := by
        unfold step; rw [if_neg h0, if_neg hre]
      have hp : s.p < pat.length := by omega
      have hu : s.u < url.length := by omega
      unfold body at e
      rw [List.getElem?_eq_getElem hu, List.getElem?_eq_getElem hp] at e
      simp only at e
      split at e
      · exact hnext _ uc e hcp
      split at e
      · rename_i hst
        have hst' : pat[s.p]? = some star := by rw [List.getElem?_eq_getElem hp, hst]
        have := hlast s.p h4 hst'
        simp only [skipStars_nds hn hst'] at e
        rw [if_pos (by omega)] at e
        exfalso
        apply hne
        rw [loop, e] at h
        simpa using h.symm
      split at e
      · exact hnext _ uc e hcp
      · exact hnext _ uc e hcp

theorem fuel_upTo {url pat : Str} {j : Nat} : fuelFor url (upTo pat j) ≤ fuelFor url pat := by
  have h : (upTo pat j).length ≤ pat.length := by rw [upTo, List.length_take]; omega
  unfold fuelFor
  exact Nat.mul_le_mul (Nat.add_le_add_right (Nat.mul_le_mul_right _ (by omega)) _) (by omega)

/-- A run with the whole pattern's number of iterations decides the shortened one. -/
theorem loop_decides {ci} {url pat : Str} (hn : NDS pat) {f : Nat} (hf : fuelFor url pat ≤ f) :
    ∃ r, loop ci url pat f ⟨0, 0, false, none⟩ = some r ∧ (r = .ret true ↔ M ci pat url) := by
  obtain ⟨r, hr⟩ := loop_terminates (ci := ci) f _ (init_TInv pat url.length) (Nat.lt_of_lt_of_le (init_measure url pat) hf)
  have hg := loop_good hn f (init_Inv ci url pat)
  rw [init_Goal, hr] at hg
  refine ⟨r, hr, ?_⟩
  cases r with
  | ret b => cases b <;> simp at hg ⊢ <;> assumption
  | panic => simp at hg ⊢; assumption

/-- The same from the visit of a star. -/
theorem body_last_star {ci} {url pat : Str} (hn : NDS pat) {i u : Nat} {d c : UInt8} {cp} (hi : pat[i]? = some star) (hd : pat[i + 1]? = some d)
    (hc : url.getLast? = some c) (hlast : ∀ p, i < p → pat[p]? = some star → p + 1 = pat.length) (hu : u < url.length) {f : Nat} {r : Res}
    (h : cont ci url pat f (body ci url pat i u cp) = some r) (hne : r ≠ .ret true) :
    r = .panic ↔ runesMatches ci c d = true := by
  have hl := lt_of_getElem?_some hd
  have hg := body_star (ci := ci) (cp := cp) hn hi hu
  have e : body ci url pat i u cp = match scan ci d (url.drop u) u with
      | some u' => .next ⟨i + 1, u', false, some (i, u')⟩
      | none => .next ⟨i, url.length, false, none⟩ := by
    unfold body
    rw [List.getElem?_eq_getElem hu, hi]
    simp only [skipStars_nds hn hi]
    rw [if_neg (by decide), if_pos trivial, if_neg (by omega), hd]
    rfl
  cases hsc : scan ci d (url.drop u) u with
  | some u' =>
    rw [hsc] at e
    rw [e] at h hg
    refine loop_last hn hd hc hlast f hg.1 ?_ rfl h hne
    intro a b hab
    simp at hab; obtain ⟨rfl, rfl⟩ := hab
    obtain ⟨_, ⟨x, hx, hm⟩, _⟩ := (scan_spec url u).1 _ hsc
    exact ⟨x, d, hx, hd, hm⟩
  | none =>
    rw [hsc] at e
    rw [e] at h
    rw [List.getLast?_eq_getElem?] at hc
    have hno := (scan_spec url u).2 hsc (url.length - 1) c (by omega) hc
    have : r = .ret false := by
      cases f with
      | zero => simp [cont, loop] at h
      | succ f =>
        simp only [cont, loop] at h
        have : step ci url pat ⟨i, url.length, false, none⟩ = .done (.ret false) := by
          unfold step
          rw [if_neg (by simp only; omega), if_pos (by simp)]
        rw [this] at h
        simpa using h.symm
    simp [this, hno]

/-- A pattern whose only later star is its last character. -/
theorem loop_from_star {ci} {url pat : Str} (hn : NDS pat) {i : Nat} {d c : UInt8} (hi : pat[i]? = some star) (hd : pat[i + 1]? = some d)
    (hc : url.getLast? = some c) (hlast : ∀ p, i < p → pat[p]? = some star → p + 1 = pat.length) (hr : M ci (upTo pat i) url)
    {f : Nat} (hf : fuelFor url pat ≤ f) (hm : ¬ M ci pat url) :
    loop ci url pat f ⟨0, 0, false, none⟩ = some .panic ↔ runesMatches ci c d = true := by
  obtain ⟨r0, h0, h1⟩ := loop_decides (ci := ci) (upTo_nds (j := i) hn) (Nat.le_trans (fuel_upTo (url := url)) hf)
  obtain ⟨r, h2, h3⟩ := loop_decides (ci := ci) hn hf
  have ha := loop_upTo hn hi f (init_Inv ci url _) (Nat.zero_le _) h0
  rw [After, if_pos (h1.2 hr), h2] at ha
  obtain ⟨u, cp, f', hu, ha⟩ := ha
  have := body_last_star hn hi hd hc hlast hu ha.symm (fun h => hm (h3.1 h))
  rw [h2]
  simpa using this

theorem upTo_upTo {pat : Str} {i j : Nat} (h : i ≤ j) : upTo (upTo pat j) i = upTo pat i := by
  rw [upTo, upTo, List.take_take, upTo]
  congr 1; omega

/-- The result on the whole pattern, when the shortened one does not accept. -/
theorem loop_upTo_eq {ci} {url pat : Str} (hn : NDS pat) {j : Nat} (hj : pat[j]? = some star) {f : Nat} (hf : fuelFor url pat ≤ f) (hm : ¬ M ci (upTo pat j) url) :
    loop ci url pat f ⟨0, 0, false, none⟩ = loop ci url (upTo pat j) f ⟨0, 0, false, none⟩ := by
  obtain ⟨r0, h0, h1⟩ := loop_decides (ci := ci) (upTo_nds (j := j) hn) (Nat.le_trans (fuel_upTo (url := url)) hf)
  have ha := loop_upTo hn hj f (init_Inv ci url _) (Nat.zero_le _) h0
  rw [After, if_neg (fun h => hm (h1.1 h))] at ha
  rw [ha, h0]

/-- The first star after `i`, if any. -/
theorem next_star (pat : Str) (i : Nat) : (∀ p, i < p → pat[p]? ≠ some star) ∨
    ∃ j, i < j ∧ pat[j]? = some star ∧ ∀ p, i < p → p < j → pat[p]? ≠ some star := by
  by_cases h : ∃ j, i < j ∧ pat[j]? = some star
  · right
    obtain ⟨j, h1, h2⟩ := h
    induction j using Nat.strongRecOn with
    | ind j ih =>
      by_cases h3 : ∃ p, i < p ∧ p < j ∧ pat[p]? = some star
      · obtain ⟨p, p1, p2, p3⟩ := h3
        exact ih p p2 p1 p3
      · exact ⟨j, h1, h2, fun p p1 p2 p3 => h3 ⟨p, p1, p2, p3⟩⟩
  · left
    intro p h1 h2
    exact h ⟨p, h1, h2⟩

theorem panic_iff_at {ci} {url pat : Str} (hn : NDS pat) {i : Nat} {d c : UInt8} (hi : pat[i]? = some star) (hd : pat[i + 1]? = some d)
    (hc : url.getLast? = some c) (hr : M ci (upTo pat i) url) (hmax : ∀ j, i < j → pat[j]? = some star → ¬ M ci (upTo pat j) url) (hm : ¬ M ci pat url)
    {f : Nat} (hf : fuelFor url pat ≤ f) :
    loop ci url pat f ⟨0, 0, false, none⟩ = some .panic ↔ runesMatches ci c d = true := by
  have hl := lt_of_getElem?_some hd
  rcases next_star pat i with h | ⟨j, j1, j2, j3⟩
  · exact loop_from_star hn hi hd hc (fun p p1 p2 => absurd p2 (h p p1)) hr hf hm
  · have hjl := lt_of_getElem?_some j2
    rw [loop_upTo_eq hn j2 hf (hmax j j1 j2)]
    refine loop_from_star (upTo_nds hn) (by rw [upTo_get (show i ≤ j by omega)]; exact hi) (by rw [upTo_get (show i + 1 ≤ j by omega)]; exact hd) hc ?_ ?_ (Nat.le_trans fuel_upTo hf) (hmax j j1 j2)
    · intro p p1 p2
      have hp := lt_of_getElem?_some p2
      rw [upTo_length hjl] at hp ⊢
      rw [upTo_get (by omega)] at p2
      by_cases hpj : p = j
      · omega
      · exact absurd p2 (j3 p p1 (by omega))
    · rw [upTo_upTo (by omega)]; exact hr

end Gofre.Glob
