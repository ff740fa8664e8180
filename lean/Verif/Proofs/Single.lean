import Verif.Proofs.StarsRoute

/-! # A single pattern serves every request it describes -/

namespace Gofre.Path
open Gofre.Spec

variable {U : Type} {acc : Segment → U → Option MT}

/-- A trie with one way, that of the pattern `p`. -/
inductive OneWay (p : Pattern) : List (Segment × UInt8) → List Node → Prop
  | last {s mx pr} : OneWay p [(s, mx)] [.mk mx pr s (some p) []]
  | more {s mx pr l kids} : OneWay p l kids → OneWay p ((s, mx) :: l) [.mk mx pr s none kids]

theorem OneWay.leaf {p : Pattern} {l : List (Segment × UInt8)} {ns : List Node} (h : OneWay p l ns) : Leaf ns l p := by
  induction h with
  | last => exact .here List.mem_cons_self
  | more _ ih => exact .down List.mem_cons_self ih

theorem OneWay.unique {p : Pattern} {l : List (Segment × UInt8)} {ns : List Node} (h : OneWay p l ns) {l' : List (Segment × UInt8)} {q : Pattern}
    (hl : Leaf ns l' q) : l' = l := by
  induction h generalizing l' with
  | last =>
    cases hl with
    | here hm => rw [List.mem_singleton] at hm; cases hm; rfl
    | down hm hk => rw [List.mem_singleton] at hm; cases hm; cases hk <;> contradiction
  | more _ ih =>
    cases hl with
    | here hm => rw [List.mem_singleton] at hm; cases hm
    | down hm hk => rw [List.mem_singleton] at hm; cases hm; rw [ih hk]

theorem oneWay_ne {p : Pattern} {l : List (Segment × UInt8)} {ns : List Node} (h : OneWay p l ns) : l ≠ [] := by cases h <;> simp

theorem oneWay_of {p : Pattern} {ns : List Node} (hfew : Every (fun ns => ns.length ≤ 1) ns)
    (hlive : Every (fun ns => ∀ n ∈ ns, n.pat.isSome ∨ n.kids ≠ []) ns) : ∀ (k : Nat), (∀ l q, Leaf ns l q → q = p ∧ l.length = k) → ns ≠ [] →
    ∃ l, OneWay p l ns := by
  induction hfew with
  | @mk ns h1 h2 ih =>
    intro k hk hne
    match ns, h1 with
    | [.mk mx pr s pat kids], _ =>
      cases pat with
      | some q =>
        obtain ⟨rfl, h3⟩ := hk _ _ (.here List.mem_cons_self)
        cases kids with
        | nil => exact ⟨_, .last⟩
        | cons c cs =>
          obtain ⟨l, q', hl⟩ := exists_leaf (hlive.kids (n := .mk mx pr s (some q) (c :: cs)) List.mem_cons_self) (by simp [Node.kids])
          have h4 := (hk _ _ (.down List.mem_cons_self hl)).2
          obtain ⟨_, _, t, rfl, _⟩ := leaf_head hl
          simp at h3 h4
          omega
      | none =>
        have hkids : kids ≠ [] := by
          rcases hlive.top _ List.mem_cons_self with h | h
          · simp [Node.pat] at h
          · exact h
        obtain ⟨l, hl⟩ := ih _ List.mem_cons_self (hlive.kids (n := .mk mx pr s none kids) List.mem_cons_self) (k - 1) (by
          intro l q hl
          have := hk _ _ (.down List.mem_cons_self hl)
          simp at this
          exact ⟨this.1, by omega⟩) hkids
        exact ⟨_, .more hl⟩

/-- What the loop of `**` does when its children are explored correctly. -/
theorem starLoop_single {any : U → Option Bool} {f : List U → Res} {p : Pattern} {l : List (Segment × UInt8)} (hl : l ≠ []) : ∀ {us : List U},
    (∀ vs u ws, us = vs ++ u :: ws → any u ≠ none) →
    (∀ vs u ws, us = vs ++ u :: ws → any u = some false → ¬ Spans acc l (u :: ws)) →
    (∀ vs u ws, us = vs ++ u :: ws → (∃ ls, f (u :: ws) = .found p ls) ∨ f (u :: ws) = .panic ∨ (f (u :: ws) = .stop ∧ ¬ Spans acc l (u :: ws)) ∨
      (f (u :: ws) = .abort ∧ ∀ vs' ws', u :: ws = vs' ++ ws' → ¬ Spans acc l ws')) →
    (∃ ls, starLoop any f us = .found p ls) ∨ starLoop any f us = .panic ∨ (starLoop any f us = .abort ∧ ∀ vs' ws', us = vs' ++ ws' → ¬ Spans acc l ws') := by
  intro us
  induction us with
  | nil =>
    intro _ _ _
    refine .inr (.inr ⟨rfl, ?_⟩)
    intro vs' ws' h hs
    have := congrArg List.length h
    simp at this
    have : ws' = [] := List.eq_nil_of_length_eq_zero (by omega)
    subst this
    cases l with
    | nil => exact hl rfl
    | cons c l => exact hs.1 rfl
  | cons u us ih =>
    intro h1 h2 h3
    have hgo : ¬ Spans acc l (u :: us) → (∃ ls, (starLoop any f us).cons .multiple = .found p ls) ∨ (starLoop any f us).cons .multiple = .panic ∨
        ((starLoop any f us).cons .multiple = .abort ∧ ∀ vs' ws', u :: us = vs' ++ ws' → ¬ Spans acc l ws') := by
      intro hn
      rcases ih (fun vs v ws e => h1 (u :: vs) v ws (by rw [e]; rfl)) (fun vs v ws e => h2 (u :: vs) v ws (by rw [e]; rfl))
        (fun vs v ws e => h3 (u :: vs) v ws (by rw [e]; rfl)) with ⟨ls, h⟩ | h | ⟨h, h'⟩
      · exact .inl ⟨_, by rw [h]; rfl⟩
      · exact .inr (.inl (by rw [h]; rfl))
      · refine .inr (.inr ⟨by rw [h]; rfl, ?_⟩)
        intro vs' ws' e
        cases vs' with
        | nil => simp at e; subst e; exact hn
        | cons v vs' => simp at e; exact h' vs' ws' e.2
    cases ha : any u with
    | none => exact absurd ha (h1 [] u us rfl)
    | some b =>
      cases b with
      | false => simp only [starLoop, ha]; exact hgo (h2 [] u us rfl ha)
      | true =>
        rw [starLoop_true ha]
        rcases h3 [] u us rfl with ⟨ls, h⟩ | h | ⟨h, h'⟩ | ⟨h, h'⟩
        · exact .inl ⟨ls, by rw [h]; rfl⟩
        · exact .inr (.inl (by rw [h]; rfl))
        · rw [h]; exact hgo h'
        · exact .inr (.inr ⟨by rw [h]; rfl, h'⟩)

theorem tryC_single (hkind : ∀ s u k, acc s u = some k → k = .unknown ∨ k = s.kind)
    (hstar : ∀ s u, s.kind = .multiple → acc s u = some .multiple) {p : Pattern} {l : List (Segment × UInt8)} {ns : List Node}
    (h : OneWay p l ns) : ∀ (d : Nat) (us : List U),
      (∀ c ∈ l, ∀ u ∈ us, acc c.1 u ≠ none) →
      us ≠ [] →
      (∃ ls, tryC acc d ns ns.length us = .found p ls) ∨ tryC acc d ns ns.length us = .panic ∨
      (tryC acc d ns ns.length us = .stop ∧ ¬ Spans acc l us) ∨
      (tryC acc d ns ns.length us = .abort ∧ ∀ vs ws, us = vs ++ ws → ¬ Spans acc l ws) := by
  induction h with
  | @last s mx pr =>
    intro d us hacc hne
    cases us with
    | nil => exact absurd rfl hne
    | cons u us =>
      rw [List.length_singleton, tryC, tryN_cons]
      by_cases hmx : mx.toNat < us.length + 1
      · rw [if_pos hmx]
        refine .inr (.inr (.inl ⟨rfl, fun h => ?_⟩))
        have := h.2.1
        simp at this
        omega
      · rw [if_neg hmx]
        cases ha : acc s u with
        | none => exact absurd ha (hacc (s, mx) (by simp) u (by simp))
        | some k =>
          by_cases hu : k = .unknown
          · subst hu
            refine .inr (.inr (.inl ⟨rfl, fun h => ?_⟩))
            by_cases hk : s.kind = .multiple
            · rw [hstar _ _ hk] at ha; cases ha
            · obtain ⟨v, vs, h1, h2, _⟩ := h.2.2.2.2 hk
              cases h1
              rw [ha] at h2
              exact h.2.2.1 (Option.some.inj h2).symm
          · have hks : k = s.kind := (hkind _ _ _ ha).resolve_left hu
            by_cases hm : k = .multiple
            · subst hm
              exact .inl ⟨_, rfl⟩
            · rw [byKind_other hu hm]
              cases us with
              | nil => exact .inl ⟨_, rfl⟩
              | cons v us =>
                by_cases hd : ¬ d + 1 < 19
                · simp only [ordinary, below, if_neg hd]; exact .inr (.inl rfl)
                have hd : d + 1 < 19 := Decidable.not_not.1 hd
                simp only [ordinary, below, if_pos hd]
                refine .inr (.inr (.inl ⟨rfl, fun h => ?_⟩))
                obtain ⟨w, ws, h1, _, h3⟩ := h.2.2.2.2 (by rw [← hks]; exact hm)
                cases h1
                simp [Spans] at h3
  | @more s mx pr l kids hk ih =>
    intro d us hacc hne
    have hlne := oneWay_ne hk
    cases us with
    | nil => exact absurd rfl hne
    | cons u us =>
      rw [List.length_singleton, tryC, tryN_cons]
      have hkl : kids.length % 65536 = kids.length := by cases hk <;> rfl
      by_cases hmx : mx.toNat < us.length + 1
      · rw [if_pos hmx]
        refine .inr (.inr (.inl ⟨rfl, fun h => ?_⟩))
        have := h.2.1
        simp at this
        omega
      · rw [if_neg hmx]
        cases ha : acc s u with
        | none => exact absurd ha (hacc (s, mx) (by simp) u (by simp))
        | some k =>
          by_cases hu : k = .unknown
          · subst hu
            refine .inr (.inr (.inl ⟨rfl, fun h => ?_⟩))
            by_cases hk : s.kind = .multiple
            · rw [hstar _ _ hk] at ha; cases ha
            · obtain ⟨v, vs, h1, h2, _⟩ := h.2.2.2.2 hk
              cases h1
              rw [ha] at h2
              exact h.2.2.1 (Option.some.inj h2).symm
          · have hks : k = s.kind := (hkind _ _ _ ha).resolve_left hu
            by_cases hm : k = .multiple
            · have hkm : s.kind = .multiple := by rw [← hks]; exact hm
              subst hm
              have hloop := starLoop_single (acc := acc) (any := fun v => anyAcc acc v kids) (f := below acc d kids) (p := p) (l := l) hlne (us := u :: us)
                (fun vs v ws e => anyAcc_some fun c hc => by
                  have : (c.seg, c.max) ∈ l := by
                    cases hk <;> (rw [List.mem_singleton] at hc; subst hc; simp [Node.seg, Node.max])
                  exact hacc (c.seg, c.max) (by simp [this]) v (by rw [e]; simp))
                (fun vs v ws e hf hs => anyAcc_taken (fun s hs => by rw [hstar s v hs]; simp) ⟨l, p, hk.leaf, hs⟩ hf)
                (fun vs v ws e => by
                  by_cases hd : ¬ d + 1 < 19
                  · rw [below, if_neg hd]; exact .inr (.inl rfl)
                  rw [below, if_pos (Decidable.not_not.1 hd), hkl]
                  refine ih (d + 1) (v :: ws) ?_ (by simp)
                  intro c hc w hw
                  exact hacc c (by simp [hc]) w (by rw [e]; simp at hw ⊢; exact .inr hw))
              simp only [byKind]
              rw [ifLeaf_no (by rintro ⟨_, h⟩; simp at h)]
              rcases hloop with ⟨ls, h1⟩ | h1 | ⟨h1, h2⟩
              · rw [h1]; exact .inl ⟨ls, rfl⟩
              · rw [h1]; exact .inr (.inl rfl)
              · rw [h1]
                refine .inr (.inr (.inr ⟨rfl, ?_⟩))
                intro vs ws e hs
                obtain ⟨vs', ws', h3, h4⟩ := hs.2.2.2.1 hkm hlne
                exact h2 (vs ++ vs') ws' (by rw [e, h3]; simp) h4
            · rw [byKind_other hu hm]
              have hkm : s.kind ≠ .multiple := by rw [← hks]; exact hm
              cases us with
              | nil =>
                refine .inr (.inr (.inl ⟨rfl, fun h => ?_⟩))
                obtain ⟨w, ws, h1, _, h3⟩ := h.2.2.2.2 hkm
                cases h1
                cases l with
                | nil => exact hlne rfl
                | cons c l => exact h3.1 rfl
              | cons v us =>
                by_cases hd : ¬ d + 1 < 19
                · simp only [ordinary, below, if_neg hd]; exact .inr (.inl rfl)
                have hd : d + 1 < 19 := Decidable.not_not.1 hd
                simp only [ordinary, below, if_pos hd, hkl]
                rcases ih (d + 1) (v :: us) (fun c hc w hw => hacc c (by simp [hc]) w (by simp at hw ⊢; exact .inr hw)) (by simp) with ⟨ls, h1⟩ | h1 | ⟨h1, h2⟩ | ⟨h1, h2⟩
                · rw [h1]; exact .inl ⟨_, rfl⟩
                · rw [h1]; exact .inr (.inl rfl)
                · rw [h1]
                  refine .inr (.inr (.inl ⟨rfl, fun h => ?_⟩))
                  obtain ⟨w, ws, h3, _, h4⟩ := h.2.2.2.2 hkm
                  cases h3
                  exact h2 h4
                · rw [h1]
                  refine .inr (.inr (.inr ⟨rfl, ?_⟩))
                  intro vs ws e h
                  obtain ⟨w, ws', h3, _, h4⟩ := h.2.2.2.2 hkm
                  subst h3
                  cases vs with
                  | nil => simp at e; exact h2 [] ws' (by simp [e.2]) h4
                  | cons a vs => simp at e; exact h2 (vs ++ [w]) ws' (by rw [e.2]; simp) h4

variable {x : Ext} {ci : Bool} {srt : List Node → List Node}

theorem answer_single (hl : FoldLaws x.eqFold) (hp : ∀ l, (srt l).Perm l) {p : Pattern} {m : Matcher} (hr : Registered x ci srt [p] m)
    (hplain : ∀ s ∈ p.segments, Plain ci s) (hlen : (pieces p.raw).length < 256)
    {us : List Str} (h19 : us.length ≤ 19) (hex : Faithful ci [p] us) (hne : us ≠ []) (hd : Describes x ci p.segments us) :
    (∃ ls, answer (matchText x ci) m us = .found p ls) ∨ answer (matchText x ci) m us = .panic := by
  have hh := holds hp hr
  have hpiece := Gofre.Props.registered_piece hr
  have hlive := registered_live hp hr
  have hfewE : Every (fun ns => ns.length ≤ 1) m.kids := registered_few hp hr
  have hne' : p.segments ≠ [] := by
    intro h
    rw [h, describes_nil] at hd
    exact hne hd
  obtain ⟨l0, h1, h2⟩ := hh.added p (by simp) hne'
  have hkids : m.kids ≠ [] := by
    intro h
    rw [h] at h1
    cases h1 <;> contradiction
  obtain ⟨l, hone⟩ := oneWay_of (p := p) hfewE hlive p.segments.length (by
    intro l q hl'
    obtain ⟨h3, h4⟩ := hh.leaf l q hl'
    rw [List.mem_singleton] at h3
    subst h3
    exact ⟨rfl, h4.length⟩) hkids
  have := hone.unique h1
  subst this
  have hnode : ∀ c ∈ l0, c.1 ∈ p.segments := by
    intro c hc
    obtain ⟨q, hq, hcq⟩ := hh.nodes _ (has_of_leaf h1 c hc)
    rw [List.mem_singleton] at hq
    subst hq
    exact hcq
  have hon := (hh.leaf _ _ h1).2
  have hspans : Spans (matchText x ci) l0 us := by
    refine spans_of_describes (us0 := us) (registered_max hr (by simp) hlen hne') p.segments 0 l0 us h2 ?_ ?_ hd (by simp) (fun _ h => h) (by omega) (fun _ h => h)
    · intro c s u hc hs' hu hcs hf
      obtain ⟨c', hc', rfl⟩ := List.mem_map.1 hc
      exact accepts hl (hpiece p (by simp) _ (hnode c' hc')) (hpiece p (by simp) _ hs') (hplain _ (hnode c' hc')) (hplain _ hs') hcs
        (fun hk => hex.wild p (by simp) _ (hnode c' hc') hk u hu)
        (fun hci => ⟨hex.request hci u hu, fun hk => hex.pats hci p (by simp) _ (hnode c' hc') hk⟩) hf
    · intro c hc
      exact piece_unknown (hpiece p (by simp) _ (hnode c hc))
  have hans : answer (matchText x ci) m us = (tryC (matchText x ci) 0 m.kids m.kids.length us).toM := by
    unfold answer
    split
    · exact absurd rfl hne
    · rw [Nat.mod_eq_of_lt (by have := hfewE.top; omega)]
  rcases tryC_single (acc := matchText x ci) (fun _ _ _ => matchText_kind) (fun s u hs => by simp [matchText, hs]) hone 0 us
    (fun c hc u hu => Gofre.Props.matchText_some (hpiece p (by simp) _ (hnode c hc)) fun hk => (hex.wild p (by simp) _ (hnode c hc) hk u hu).1)
    hne with ⟨ls, h⟩ | h | ⟨_, h⟩ | ⟨_, h⟩
  · exact .inl ⟨ls, by rw [hans, h]; rfl⟩
  · exact .inr (by rw [hans, h]; rfl)
  · exact absurd hspans h
  · exact absurd hspans (h [] us rfl)

end Gofre.Path
