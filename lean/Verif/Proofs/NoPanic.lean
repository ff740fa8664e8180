import Verif.Proofs.TriePaths

/-! # When the search does not crash -/

namespace Gofre.Path
open Gofre.Spec

/-- Every node was created by a registered pattern. -/
theorem registered_thru {x : Ext} {ci : Bool} {srt : List Node → List Node} (hp : ∀ l, (srt l).Perm l) {ps : List Pattern} {m : Matcher}
    (h : Registered x ci srt ps m) : ∀ l, Thru m.kids l → ∃ p ∈ ps, Made x ci p p.segments l := by
  have step : ∀ {m m' : Matcher} {p : Pattern} {r : Bool}, addPattern x ci srt m p = (m', r) → ∀ l, Thru m'.kids l →
      Thru m.kids l ∨ (r = false ∧ Made x ci p p.segments l) := by
    intro m m' p r ha l hl
    unfold addPattern at ha
    cases hs : p.segments with
    | nil =>
      rw [hs] at ha
      cases hr : m.root with
      | some q => rw [hr] at ha; simp only [Prod.mk.injEq] at ha; rw [← ha.1] at hl; exact .inl hl
      | none => rw [hr] at ha; simp only [Prod.mk.injEq] at ha; rw [← ha.1] at hl; exact .inl hl
    | cons s ss =>
      rw [hs] at ha
      simp only [Prod.mk.injEq] at ha
      rw [← ha.1] at hl
      rcases insert_thru hp _ _ _ _ _ hl with h | ⟨h1, h2⟩
      · exact .inl h
      · exact .inr ⟨by rw [← ha.2]; exact h1, h2⟩
  induction h with
  | new => intro l hl; exact absurd hl not_thru_nil
  | added raw a _ _ ha ih =>
    intro l hl
    rcases step ha l hl with h | ⟨_, h⟩
    · obtain ⟨q, hq, h⟩ := ih l h; exact ⟨q, by simp [hq], h⟩
    · exact ⟨_, by simp, h⟩
  | refused raw a _ _ ha ih =>
    intro l hl
    rcases step ha l hl with h | ⟨h, _⟩
    · exact ih l h
    · cases h

variable {U : Type} {acc : Segment → U → Option MT}

theorem anyAcc_some {u : U} : ∀ {ns : List Node}, (∀ n ∈ ns, acc n.seg u ≠ none) → anyAcc acc u ns ≠ none := by
  intro ns
  induction ns with
  | nil => intro _; simp [anyAcc]
  | cons n ns ih =>
    intro h
    simp only [anyAcc]
    split
    · rename_i h0; exact absurd h0 (h n (by simp))
    · exact ih fun m hm => h m (by simp [hm])
    · simp

theorem starLoop_no_panic {any : U → Option Bool} {f : List U → Res} : ∀ {us : List U}, (∀ u ∈ us, any u ≠ none) →
    (∀ pre vs, us = pre ++ vs → f vs ≠ .panic) → starLoop any f us ≠ .panic := by
  intro us
  induction us with
  | nil => intro _ _; simp [starLoop]
  | cons u us ih =>
    intro h hf
    have hgo : (starLoop any f us).cons .multiple ≠ .panic := by
      have := ih (fun v hv => h v (by simp [hv])) (fun pre vs he => hf (u :: pre) vs (by rw [he]; rfl))
      cases hs : starLoop any f us <;> simp [Res.cons]
      exact this hs
    cases ha : any u with
    | none => exact absurd ha (h u (by simp))
    | some b =>
      cases b with
      | false => simpa only [starLoop, ha] using hgo
      | true =>
        rw [starLoop_true ha]
        have := hf [] (u :: us) rfl
        cases hs : f (u :: us) <;> simp [Res.orStop]
        · exact hgo
        · exact this hs

theorem starLoop_none {any : U → Option Bool} {f : List U → Res} : ∀ us : List U, (∀ u, any u = some false) → starLoop any f us ≠ .panic
  | [], _ => by simp [starLoop]
  | u :: us, h => by
    simp only [starLoop, h u]
    have := starLoop_none (f := f) us h
    cases hs : starLoop any f us <;> simp [Res.cons]
    exact this hs

/-- The search does not panic when comparing segments does not, and every way down that is too
long for the stacks has no `**`, or has one at its end and just fits. -/
theorem tryC_no_panic (hkind : ∀ s u k, acc s u = some k → k = .unknown ∨ k = s.kind) :
    ∀ (n : Nat) (ns : List Node), sizeOf ns ≤ n → ∀ (d b : Nat) (us : List U),
      (∀ s, Has ns s → ∀ u ∈ us, acc s u ≠ none) →
      (∀ l, Thru ns l → d + l.length ≤ 18 ∨ (us.length + d ≤ 19 ∧ ∀ c ∈ l, c.1.kind ≠ .multiple) ∨
        (d + l.length ≤ 19 ∧ ∃ c, l.getLast? = some c ∧ c.1.kind = .multiple)) →
      tryC acc d ns b us ≠ .panic := by
  intro n
  induction n with
  | zero => intro ns h; cases ns <;> simp at h
  | succ n ih =>
    intro ns hn d b us hacc hthru
    match ns, b with
    | [], _ => simp [tryC]
    | _ :: _, 0 => simp [tryC]
    | .mk mx pr seg pat kids :: rest, b + 1 =>
      rw [tryC]
      have hrest : tryC acc d rest b us ≠ .panic :=
        ih rest (by simp at hn; omega) d b us (fun s hs => hacc s (hs.mono (by intro n hn; simp [hn])))
          (fun l hl => hthru l (hl.mono (by intro n hn; simp [hn])))
      suffices hN : tryN acc d (.mk mx pr seg pat kids) us ≠ .panic by
        split
        · exact hrest
        · exact hN
      cases us with
      | nil => simp [tryN]
      | cons u us =>
        rw [tryN_cons]
        split
        · simp
        · have hself := hthru [(seg, pr)] (.here List.mem_cons_self)
          have hkids : ∀ l, Thru kids l → _ := fun l hl => hthru ((seg, pr) :: l) (.down List.mem_cons_self hl)
          have hsize : sizeOf kids ≤ n := by have := sizeOf_kids mx pr seg pat kids rest; omega
          have hasK : ∀ s, Has kids s → ∀ v ∈ u :: us, acc s v ≠ none := fun s hs => hacc s (.down List.mem_cons_self hs)
          cases ha : acc seg u with
          | none => exact absurd ha (hacc seg (.here List.mem_cons_self) u (by simp))
          | some k =>
            by_cases hu : k = .unknown
            · subst hu; simp [byKind]
            · have hks : k = seg.kind := (hkind _ _ _ ha).resolve_left hu
              by_cases hm : k = .multiple
              · subst hm
                simp only [byKind]
                by_cases hl : kids = [] ∧ pat.isSome
                · obtain ⟨rfl, hl⟩ := hl
                  obtain ⟨q, rfl⟩ := Option.isSome_iff_exists.1 hl
                  simp [ifLeaf]
                · rw [ifLeaf_no hl]
                  by_cases hd : ¬ d + 1 < 19
                  · have hnil : kids = [] := by
                      cases kids with
                      | nil => rfl
                      | cons c cs =>
                        exfalso
                        obtain ⟨_, _, _, _, _⟩ := c
                        rcases hkids _ (.here List.mem_cons_self) with h | ⟨_, h⟩ | ⟨h, _⟩
                        · simp at h; omega
                        · exact absurd hks.symm (h (seg, pr) (by simp))
                        · simp at h; omega
                    subst hnil
                    exact starLoop_none (u :: us) fun v => rfl
                  have hd : d + 1 < 19 := Decidable.not_not.1 hd
                  refine starLoop_no_panic ?_ ?_
                  · intro v hv
                    exact anyAcc_some fun c hc => hasK c.seg (by cases c; exact .here hc) v hv
                  · intro pre vs he
                    rw [below, if_pos hd]
                    refine ih kids hsize _ _ _ (fun s hs v hv => hasK s hs v (by rw [he]; simp [hv])) ?_
                    intro l hl
                    rcases hkids l hl with h | ⟨_, h⟩ | ⟨h, c, h1, h2⟩
                    · left; simp at h; omega
                    · exact absurd hks.symm (h (seg, pr) (by simp))
                    · refine .inr (.inr ⟨by simp at h; omega, c, ?_, h2⟩)
                      cases hl <;> simpa using h1
              · rw [byKind_other hu hm]
                cases us with
                | nil => cases pat <;> simp [ordinary]
                | cons v us =>
                  simp only [ordinary]
                  have hd : d + 1 < 19 := by
                    rcases hself with h | ⟨h, _⟩ | ⟨_, c, h1, h2⟩
                    · simp at h; omega
                    · simp at h; omega
                    · simp at h1
                      subst h1
                      exact absurd (hks.trans h2) hm
                  have hb : below acc d kids (v :: us) ≠ .panic := by
                    rw [below, if_pos hd]
                    refine ih kids hsize _ _ _ (fun s hs w hw => hasK s hs w (by simp at hw ⊢; exact .inr hw)) ?_
                    intro l hl
                    rcases hkids l hl with h | ⟨h, h'⟩ | ⟨h, c, h1, h2⟩
                    · left; simp at h; omega
                    · exact .inr (.inl ⟨by simp at h ⊢; omega, fun c hc => h' c (by simp [hc])⟩)
                    · refine .inr (.inr ⟨by simp at h; omega, c, ?_, h2⟩)
                      cases hl <;> simpa using h1
                  cases hs : below acc d kids (v :: us) <;> simp [Res.up]
                  exact hb hs

theorem answer_no_panic {m : Matcher} {us : List U} (h : tryC acc 0 m.kids (m.kids.length % 65536) us ≠ .panic) : answer acc m us ≠ .panic := by
  have : (tryC acc 0 m.kids (m.kids.length % 65536) us).toM ≠ .panic := by
    cases hs : tryC acc 0 m.kids (m.kids.length % 65536) us <;> simp [Res.toM]
    exact h hs
  unfold answer
  split
  · simp
  · exact this

end Gofre.Path
