import Verif.Proofs.Complete

/-! # Duplicate patterns -/

namespace Gofre.Path
open Gofre.Spec

variable {x : Ext} {ci : Bool} {srt : List Node → List Node}

theorem pairwise_mem {α : Type} {R : α → α → Prop} {l : List α} (h : l.Pairwise R) {a b : α} (ha : a ∈ l) (hb : b ∈ l) : a = b ∨ R a b ∨ R b a := by
  induction h with
  | nil => cases ha
  | cons h1 _ ih =>
    rcases List.mem_cons.1 ha with ea | ha'
    · rcases List.mem_cons.1 hb with eb | hb'
      · exact .inl (ea.trans eb.symm)
      · subst ea; exact .inr (.inl (h1 b hb'))
    · rcases List.mem_cons.1 hb with eb | hb'
      · subst eb; exact .inr (.inr (h1 a ha'))
      · exact ih ha' hb'

theorem alike2_trans (hl : FoldLaws x.eqFold) {a b c : Segment} (h : Alike2 x ci a b) (h' : Alike2 x ci b c) : Alike2 x ci a c := by
  obtain ⟨h1, h2⟩ := h
  obtain ⟨_, h3⟩ := h'
  have hk := shares_kind h2
  have hk' := shares_kind h3
  refine ⟨h1, ?_⟩
  unfold shares at h2 h3 ⊢
  rw [if_pos hk] at h2
  rw [if_pos hk'] at h3
  rw [if_pos (hk'.trans hk)]
  rw [hk'] at h3 ⊢
  rw [hk] at h2 h3 ⊢
  cases hka : a.kind <;> simp only [hka] at h1 h2 h3 ⊢
  · cases ci with
    | false => simp at h2 h3 ⊢; rw [h2, h3]
    | true => simp at h2 h3 ⊢; exact hl.trans _ _ _ h2 h3
  · cases ci with
    | false => simp at h2 h3 ⊢; rw [h2, h3]
    | true => simp at h2 h3 ⊢; exact hl.trans _ _ _ h2 h3
  · exact absurd rfl h1
  · cases ci with
    | false => simp at h2 h3 ⊢; rw [h2, h3]
    | true => simp at h2 h3 ⊢; exact hl.trans _ _ _ h2 h3

theorem alike2_refl (hl : FoldLaws x.eqFold) {a : Segment} (h : a.kind ≠ .constraint) : Alike2 x ci a a := by
  refine ⟨h, ?_⟩
  unfold shares
  rw [if_pos rfl]
  cases hka : a.kind <;> simp only [hka] at h ⊢
  · cases ci <;> simp [hl.refl]
  · cases ci <;> simp [hl.refl]
  · exact absurd rfl h
  · cases ci <;> simp [hl.refl]

theorem alike2_of_same (hl : FoldLaws x.eqFold) {s t : Segment} (hc : s.kind ≠ .constraint) (hu : s.kind ≠ .unknown) (h : SameSegment x ci s t) :
    Alike2 x ci s t := by
  refine ⟨hc, ?_⟩
  unfold shares
  rw [if_pos h.1.symm, ← h.1]
  have hv := h.2.1
  cases hk : s.kind <;> simp only [hk] at hc hu hv ⊢
  · exact absurd rfl hu
  · cases ci with
    | false => simpa using hv
    | true =>
      simp at hv ⊢
      rcases hv with h | h
      · rw [h]; exact hl.refl _
      · exact h
  · exact absurd rfl hc
  · cases ci with
    | false => simpa using hv
    | true =>
      simp at hv ⊢
      rcases hv with h | h
      · rw [h]; exact hl.refl _
      · exact h

theorem same_of_alike2 {s t : Segment} (h : Alike2 x ci s t) : SameSegment x ci s t := by
  obtain ⟨hc, h⟩ := h
  have hk := shares_kind h
  refine ⟨hk.symm, ?_, fun h => absurd h hc⟩
  unfold shares at h
  rw [if_pos hk, hk] at h
  intro hlr
  rcases hlr with hlr | hlr <;> simp only [hlr] at h <;> cases ci <;> simp at h ⊢ <;> first | exact h | exact .inr h

/-- The same way leads to the same pattern. -/
theorem way_unique (hl : FoldLaws x.eqFold) {ns : List Node} {l : List (Segment × UInt8)} {p : Pattern} (h : Leaf ns l p) :
    ∀ {l' q}, Every (List.Pairwise fun a b => ¬ Alike2 x ci a.seg b.seg) ns → Leaf ns l' q →
      All2 (fun c c' => Alike2 x ci c.1 c'.1) l l' → p = q := by
  have node : ∀ {ns : List Node} {n n' : Node}, ns.Pairwise (fun a b => ¬ Alike2 x ci a.seg b.seg) → n ∈ ns → n' ∈ ns → Alike2 x ci n.seg n'.seg → n = n' := by
    intro ns n n' h1 h2 h3 h4
    rcases pairwise_mem h1 h2 h3 with h | h | h
    · exact h
    · exact absurd h4 h
    · exact absurd (alike2_symm hl h4) h
  induction h with
  | here hm =>
    intro l' q hev hl' ha
    cases hl' with
    | here hm' =>
      cases ha with
      | cons h1 _ =>
        have := node hev.top hm hm' h1
        simp only [Node.mk.injEq, Option.some.injEq] at this
        exact this.2.2.2.1
    | down hm' hl' =>
      cases ha with
      | cons _ h2 => cases h2; cases hl'
  | down hm hlf ih =>
    intro l' q hev hl' ha
    cases hl' with
    | here hm' =>
      cases ha with
      | cons _ h2 => cases h2; cases hlf
    | down hm' hl' =>
      cases ha with
      | cons h1 h2 =>
        have := node hev.top hm hm' h1
        simp only [Node.mk.injEq] at this
        obtain ⟨_, _, _, _, rfl⟩ := this
        exact ih (hev.kids hm) hl' h2

theorem insert_refuses (hl : FoldLaws x.eqFold) {p : Pattern} :
    ∀ (ss : List Segment) (i : Nat) (s : Segment) (kids : List Node) (l : List (Segment × UInt8)) (q : Pattern),
      Every (List.Pairwise fun a b => ¬ Alike2 x ci a.seg b.seg) kids → Leaf kids l q → All2 (fun c s => Alike2 x ci s c.1) l (s :: ss) →
      (insert x ci srt p i s ss kids).2 = true := by
  have node : ∀ {ns : List Node} {n n' : Node}, ns.Pairwise (fun a b => ¬ Alike2 x ci a.seg b.seg) → n ∈ ns → n' ∈ ns → Alike2 x ci n.seg n'.seg → n = n' := by
    intro ns n n' h1 h2 h3 h4
    rcases pairwise_mem h1 h2 h3 with h | h | h
    · exact h
    · exact absurd h4 h
    · exact absurd (alike2_symm hl h4) h
  intro ss
  induction ss with
  | nil =>
    intro i s kids l q hev hlf ha
    obtain ⟨n, hn, t, rfl, hlf1⟩ := leaf_head hlf
    cases ha with
    | cons h1 h2 =>
      cases h2
      simp only at h1
      rcases insert_cases x ci srt p i s [] kids with ⟨hno, _⟩ | ⟨a, b, mx, pr, seg, pat, ks, hk, hs, _, hc⟩
      · have := h1.2; rw [hno n hn] at this; cases this
      · have he : Node.mk mx pr seg pat ks = n := by
          refine node hev.top (by rw [hk]; simp) hn ?_
          exact alike2_trans hl (alike2_symm hl ⟨h1.1, hs⟩) h1
        subst he
        rcases hc with ⟨_, q', rfl, he⟩ | ⟨_, rfl, he⟩ | ⟨_, _, h0, _⟩
        · rw [he]
        · exfalso
          generalize hg : [((Node.mk mx pr seg none ks).seg, (Node.mk mx pr seg none ks).max)] = l at hlf1
          cases hlf1 with
          | here hm => rw [List.mem_singleton] at hm; cases hm
          | down hm hl' => simp at hg; rw [hg.2] at hl'; cases hl'
        · cases h0
  | cons s1 ss1 ih =>
    intro i s kids l q hev hlf ha
    obtain ⟨n, hn, t, rfl, hlf1⟩ := leaf_head hlf
    cases ha with
    | cons h1 h2 =>
      simp only at h1
      rcases insert_cases x ci srt p i s (s1 :: ss1) kids with ⟨hno, _⟩ | ⟨a, b, mx, pr, seg, pat, ks, hk, hs, _, hc⟩
      · have := h1.2; rw [hno n hn] at this; cases this
      · have he : Node.mk mx pr seg pat ks = n := by
          refine node hev.top (by rw [hk]; simp) hn ?_
          exact alike2_trans hl (alike2_symm hl ⟨h1.1, hs⟩) h1
        subst he
        rcases hc with ⟨h0, _⟩ | ⟨h0, _⟩ | ⟨s', ss', h0, he⟩
        · cases h0
        · cases h0
        · cases h0
          rw [he]
          simp only
          refine ih (i + 1) s1 ks t q (hev.kids hn) ?_ h2
          generalize hg : ((Node.mk mx pr seg pat ks).seg, (Node.mk mx pr seg pat ks).max) :: t = l at hlf1
          cases hlf1 with
          | here hm => simp at hg; rw [hg.2] at h2; cases h2
          | down hm hl' => rw [List.mem_singleton] at hm; cases hm; simp at hg; rw [hg.2]; exact hl'

end Gofre.Path
