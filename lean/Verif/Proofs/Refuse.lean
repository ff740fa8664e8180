import Verif.Proofs.StarsRoute

/-! # What a refused registration does to the trie -/

namespace Gofre.Path
open Gofre.Spec (Registered pieces)

variable {x : Ext} {ci : Bool} {srt : List Node → List Node} {p : Pattern}

/-- Limits that are large enough. -/
abbrev Suffice : List (Segment × UInt8) → List (Segment × UInt8) → Prop := All2 fun c n => n.2.toNat ≤ c.2.toNat

theorem Suffice.refl (l : List (Segment × UInt8)) : Suffice l l := by
  induction l with
  | nil => exact .nil
  | cons a l ih => exact .cons (Nat.le_refl _) ih

theorem Suffice.grown {l l0 c : List (Segment × UInt8)} (hg : Grown l l0) (h : Suffice l0 c) : Suffice l c := by
  induction hg generalizing c with
  | nil => exact h
  | cons hr _ ih =>
    cases h with
    | cons h1 h2 => exact .cons (Nat.le_trans h1 hr.2) (ih h2)

/-- Every leaf after a registration was there before or belongs to the new pattern, with limits that suffice for it. -/
theorem insert_limits (hp : ∀ l, (srt l).Perm l) : ∀ (ss : List Segment) (i : Nat) (s : Segment) (kids : List Node)
    (l : List (Segment × UInt8)) (q : Pattern), Leaf (insert x ci srt p i s ss kids).1 l q →
    (∃ l0, Leaf kids l0 q ∧ Grown l l0) ∨
    (q = p ∧ Suffice l (chainPath p i (s :: ss))) := by
  intro ss
  induction ss with
  | nil =>
    intro i s kids l q h
    rcases insert_cases x ci srt p i s [] kids with ⟨_, he⟩ | ⟨a, b, mx, pr, seg, pat, ks, hk, hs, _, hc⟩
    · rw [he] at h
      rcases Leaf.append.1 ((Leaf.perm (hp _)).1 h) with h | h
      · exact .inl ⟨l, h, .refl l⟩
      · obtain ⟨rfl, rfl⟩ := (leaf_chain_iff p _ _ _ _ _).1 h
        exact .inr ⟨rfl, .cons (Nat.le_refl _) .nil⟩
    · subst hk
      rcases hc with ⟨_, q', rfl, he⟩ | ⟨_, rfl, he⟩ | ⟨_, _, h0, _⟩
      · rw [he] at h
        left
        rcases Leaf.append.1 h with h | h
        · exact ⟨l, Leaf.append.2 (.inl h), .refl l⟩
        · rcases Leaf.cons_split.1 h with h | h
          · cases h with
            | here hm =>
              rw [List.mem_singleton] at hm
              cases hm
              exact ⟨_, Leaf.append.2 (.inr (.here List.mem_cons_self)), .cons ⟨rfl, (grow_le _ _).1⟩ .nil⟩
            | down hm hl =>
              rw [List.mem_singleton] at hm
              cases hm
              exact ⟨_, Leaf.append.2 (.inr (.down List.mem_cons_self hl)), .cons ⟨rfl, (grow_le _ _).1⟩ (Grown.refl _)⟩
          · exact ⟨l, Leaf.append.2 (.inr (Leaf.cons_split.2 (.inr h))), .refl l⟩
      · rw [he] at h
        rcases Leaf.append.1 h with h | h
        · exact .inl ⟨l, Leaf.append.2 (.inl h), .refl l⟩
        · rcases Leaf.cons_split.1 h with h | h
          · cases h with
            | here hm =>
              rw [List.mem_singleton] at hm
              cases hm
              exact .inr ⟨rfl, .cons (grow_le _ _).2 .nil⟩
            | down hm hl =>
              rw [List.mem_singleton] at hm
              cases hm
              exact .inl ⟨_, Leaf.append.2 (.inr (.down List.mem_cons_self hl)), .cons ⟨rfl, (grow_le _ _).1⟩ (Grown.refl _)⟩
          · exact .inl ⟨l, Leaf.append.2 (.inr (Leaf.cons_split.2 (.inr h))), .refl l⟩
      · cases h0
  | cons s1 ss1 ih =>
    intro i s kids l q h
    rcases insert_cases x ci srt p i s (s1 :: ss1) kids with ⟨_, he⟩ | ⟨a, b, mx, pr, seg, pat, ks, hk, hs, _, hc⟩
    · rw [he] at h
      rcases Leaf.append.1 ((Leaf.perm (hp _)).1 h) with h | h
      · exact .inl ⟨l, h, .refl l⟩
      · obtain ⟨rfl, rfl⟩ := (leaf_chain_iff p _ _ _ _ _).1 h
        exact .inr ⟨rfl, Suffice.refl _⟩
    · subst hk
      rcases hc with ⟨h0, _⟩ | ⟨h0, _⟩ | ⟨s', ss', h0, he⟩
      · cases h0
      · cases h0
      · cases h0
        rw [he] at h
        rcases Leaf.append.1 h with h | h
        · exact .inl ⟨l, Leaf.append.2 (.inl h), .refl l⟩
        · rcases Leaf.cons_split.1 h with h | h
          · cases h with
            | here hm =>
              rw [List.mem_singleton] at hm
              cases hm
              exact .inl ⟨_, Leaf.append.2 (.inr (.here List.mem_cons_self)), .cons ⟨rfl, (grow_le _ _).1⟩ .nil⟩
            | down hm hl =>
              rw [List.mem_singleton] at hm
              cases hm
              rcases ih _ _ _ _ _ hl with ⟨l0, h1, h2⟩ | ⟨h1, h3⟩
              · exact .inl ⟨_, Leaf.append.2 (.inr (.down List.mem_cons_self h1)), .cons ⟨rfl, (grow_le _ _).1⟩ h2⟩
              · exact .inr ⟨h1, .cons (grow_le _ _).2 h3⟩
          · exact .inl ⟨l, Leaf.append.2 (.inr (Leaf.cons_split.2 (.inr h))), .refl l⟩

/-- In a trie every leaf can be reached by what its pattern allows. -/
theorem registered_suffice (hp : ∀ l, (srt l).Perm l) {ps : List Pattern} {m : Matcher} (hr : Registered x ci srt ps m) :
    ∀ l q, Leaf m.kids l q → Suffice l (chainPath q 0 q.segments) := by
  have step : ∀ {m m' : Matcher} {p : Pattern} {e : Bool}, (∀ l q, Leaf m.kids l q → Suffice l (chainPath q 0 q.segments)) →
      addPattern x ci srt m p = (m', e) → ∀ l q, Leaf m'.kids l q → Suffice l (chainPath q 0 q.segments) := by
    intro m m' p e ih ha l q hl
    unfold addPattern at ha
    cases hs : p.segments with
    | nil =>
      rw [hs] at ha
      cases hroot : m.root with
      | some r =>
        rw [hroot] at ha
        simp only [Prod.mk.injEq] at ha
        rw [← ha.1] at hl
        exact ih l q hl
      | none =>
        rw [hroot] at ha
        simp only [Prod.mk.injEq] at ha
        rw [← ha.1] at hl
        exact ih l q hl
    | cons s ss =>
      rw [hs] at ha
      simp only [Prod.mk.injEq] at ha
      rw [← ha.1] at hl
      rcases insert_limits hp _ _ _ _ _ _ hl with ⟨l0, h1, h2⟩ | ⟨rfl, h⟩
      · exact (ih l0 q h1).grown h2
      · rw [hs]; exact h
  induction hr with
  | new =>
    intro l q h
    cases h with
    | here h => cases h
    | down h _ => cases h
  | added raw a _ _ ha ih => exact step ih ha
  | refused raw a _ _ ha ih => exact step ih ha

/-- A refused registration leaves nodes whose limits already suffice as they are. -/
theorem insert_refused : ∀ (ss : List Segment) (i : Nat) (s : Segment) (kids : List Node),
    (insert x ci srt p i s ss kids).2 = true →
    (∀ l q, Leaf kids l q → All2 (fun c t => shares x ci t c.1 = true) l (s :: ss) → Suffice l (chainPath p i (s :: ss))) →
    (insert x ci srt p i s ss kids).1 = kids := by
  have keep : ∀ (mx y : UInt8), y.toNat ≤ mx.toNat → (if mx < y then y else mx) = mx := by
    intro mx y h
    rw [if_neg]
    intro e
    have := UInt8.lt_iff_toNat_lt.1 e
    omega
  intro ss
  induction ss with
  | nil =>
    intro i s kids h hs
    rcases insert_cases x ci srt p i s [] kids with ⟨_, he⟩ | ⟨a, b, mx, pr, seg, pat, ks, hk, hsh, _, hc⟩
    · rw [he] at h; cases h
    · subst hk
      rcases hc with ⟨_, q', rfl, he⟩ | ⟨_, rfl, he⟩ | ⟨_, _, h0, _⟩
      · rw [he]
        have := hs [(seg, mx)] q' (Leaf.append.2 (.inr (.here List.mem_cons_self))) (.cons hsh .nil)
        cases this with
        | cons h1 _ => simp only [keep mx _ h1]
      · rw [he] at h; cases h
      · cases h0
  | cons s1 ss1 ih =>
    intro i s kids h hs
    rcases insert_cases x ci srt p i s (s1 :: ss1) kids with ⟨_, he⟩ | ⟨a, b, mx, pr, seg, pat, ks, hk, hsh, _, hc⟩
    · rw [he] at h; cases h
    · subst hk
      rcases hc with ⟨h0, _⟩ | ⟨h0, _⟩ | ⟨s', ss', h0, he⟩
      · cases h0
      · cases h0
      · cases h0
        rw [he] at h ⊢
        have below : ∀ l q, Leaf ks l q → All2 (fun c t => shares x ci t c.1 = true) l (s1 :: ss1) →
            (maxAt p i).toNat ≤ mx.toNat ∧ Suffice l (chainPath p (i + 1) (s1 :: ss1)) := by
          intro l q hl ho
          have := hs ((seg, mx) :: l) q (Leaf.append.2 (.inr (.down List.mem_cons_self hl))) (.cons hsh ho)
          rw [chainPath] at this
          cases this with
          | cons h1 h2 => exact ⟨h1, h2⟩
        obtain ⟨l, q, hl, ho⟩ := insert_err _ _ _ _ h
        rw [keep mx _ (below l q hl ho).1, ih (i + 1) s1 ks h (fun l q hl ho => (below l q hl ho).2)]

/-- Patterns of fewer than 256 pieces whose segments are of the same kinds have the same limit. -/
theorem same_limit {raw raw' : Str} {p q : Pattern} (hp : parsePattern x ci raw = .ok p) (hq : parsePattern x ci raw' = .ok q)
    (hlp : (pieces raw).length < 256) (hlq : (pieces raw').length < 256) (hnp : p.segments ≠ []) (hnq : q.segments ≠ [])
    (hk : p.segments.map (·.kind) = q.segments.map (·.kind)) : p.maxMatchable = q.maxMatchable := by
  have root : ∀ {raw : Str} {p : Pattern}, parsePattern x ci raw = .ok p → p.segments ≠ [] → raw ≠ b!"/" := by
    rintro raw p h hn rfl
    simp [parsePattern] at h
    subst h
    exact hn rfl
  have cp := (Gofre.Props.c05_segments x ci raw p hp (root hp hnp) hlp).2.2
  have cq := (Gofre.Props.c05_segments x ci raw' q hq (root hq hnq) hlq).2.2
  have hm : (∃ s ∈ p.segments, s.kind = .multiple) ↔ ∃ s ∈ q.segments, s.kind = .multiple := by
    have e : ∀ l : List Segment, (∃ s ∈ l, s.kind = .multiple) ↔ MT.multiple ∈ l.map (·.kind) := by simp
    rw [e, e, hk]
  by_cases h : ∃ s ∈ p.segments, s.kind = .multiple
  · rw [cp.1 h, cq.1 (hm.1 h)]
  · have h1 := cp.2.1 fun s hs e => h ⟨s, hs, e⟩
    have h2 := cq.2.1 fun s hs e => h (hm.2 ⟨s, hs, e⟩)
    apply UInt8.toNat_inj.1
    rw [h1, h2]
    simpa using congrArg List.length hk

end Gofre.Path
