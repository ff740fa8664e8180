import Verif.Props.ShadowChain
import Verif.Proofs.Redirect

/-! # C101 for patterns as written -/

namespace Gofre.Props
open Gofre.Path Gofre.Spec

/-- A text spells one segment. -/
theorem piece_unique {ci : Bool} {v : Str} {s t : Segment} (h : Piece ci v s) (h' : Piece ci v t) : s = t := by
  have h1 := ((piece_iff { plainExt with compiles := fun _ => true } ci v s).2 ⟨h, fun _ _ => rfl⟩).2
  have h2 := ((piece_iff { plainExt with compiles := fun _ => true } ci v t).2 ⟨h', fun _ _ => rfl⟩).2
  exact Option.some.inj (h1.symm.trans h2)

theorem pieces_unique {ci : Bool} {vs : List Str} : ∀ {ss ts : List Segment}, All2 (Piece ci) vs ss → All2 (Piece ci) vs ts → ss = ts := by
  induction vs with
  | nil => intro ss ts h h'; cases h; cases h'; rfl
  | cons v vs ih =>
    intro ss ts h h'
    cases h with
    | cons a b =>
      cases h' with
      | cons a' b' => rw [piece_unique a a', ih b b']

/-- A registered pattern of few pieces is spelled by them. -/
theorem registered_spelled {x : Ext} {ci : Bool} {srt : List Node → List Node} {ps : List Pattern} {m : Matcher} (hr : Registered x ci srt ps m)
    {p : Pattern} (hp : p ∈ ps) (hne : p.raw ≠ b!"/") (hlen : (pieces p.raw).length < 256) : Spells x.compiles ci p.raw p.segments := by
  obtain ⟨raw, p0, a, h, rfl⟩ := registered_parsed hr p hp
  have e := parse_raw h
  show Spells x.compiles ci p0.raw p0.segments
  rw [e]
  exact (c05_segments x ci raw p0 h (by rw [← e]; exact hne) (by rw [← e]; exact hlen)).1

/-- Splitting a list at the first element with a property. -/
theorem first_with {α : Type} (P : α → Bool) : ∀ l : List α, (∀ c ∈ l, P c = false) ∨ ∃ a d b, l = a ++ d :: b ∧ P d = true ∧ ∀ c ∈ a, P c = false := by
  intro l
  induction l with
  | nil => exact .inl (by simp)
  | cons c l ih =>
    cases hc : P c with
    | true => exact .inr ⟨[], c, l, rfl, hc, by simp⟩
    | false =>
      rcases ih with h | ⟨a, d, b, rfl, h2, h3⟩
      · exact .inl (by simpa [hc] using h)
      · exact .inr ⟨c :: a, d, b, rfl, h2, by simpa [hc] using h3⟩

theorem same_refl (x : Ext) (ci : Bool) : ∀ ss : List Segment, All2 (SameSegment x ci) ss ss
  | [] => .nil
  | _ :: ss => .cons ⟨rfl, fun _ => .inl rfl, fun _ => rfl⟩ (same_refl x ci ss)

/-- C101 on the texts of the patterns: of `base/{name}` and `base/*` the second is never found, whatever else is registered and in whatever
order, and whatever the request, if `base` has no `**` and, among the patterns registered, none has more than 19 pieces or two `**` and none has
a constraint that starts with a brace. -/
theorem c101_text_partial {x : Ext} {ci : Bool} (hl : FoldLaws x.eqFold) {ps : List Pattern} {m : Matcher} (hr : Registered x ci sortSiblings ps m)
    (hshort : ∀ p ∈ ps, (pieces p.raw).length ≤ 19) (hone : ∀ p ∈ ps, (pieces p.raw).count b!"**" ≤ 1)
    (hbrace : ∀ p ∈ ps, ∀ v ∈ pieces p.raw, ∀ name re : Str, v ≠ 123 :: name ++ 58 :: 123 :: re)
    {p q : Pattern} (hp : p ∈ ps) (hq : q ∈ ps) {base name : Str} (hpr : p.raw = base ++ b!"/{" ++ name ++ b!"}") (hqr : q.raw = base ++ b!"/*")
    (hname : slash ∉ name ∧ (58 : UInt8) ∉ name) (hbase : b!"**" ∉ splitOn slash base)
    {path : Str} {buf : List USeg} (hb : buf.length = 19) {fuel : Nat} {labels : List MT} :
    lookup x ci m path buf fuel ≠ some (.found q labels) := by
  have hpr' : p.raw = base ++ slash :: (123 :: name ++ [125]) := by rw [hpr]; simp
  have hqr' : q.raw = base ++ slash :: b!"*" := hqr
  have hroot : ∀ p ∈ ps, p.raw = b!"/" ∨ Spells x.compiles ci p.raw p.segments := by
    intro p hp
    by_cases h : p.raw = b!"/"
    · exact .inl h
    · exact .inr (registered_spelled hr hp h (by have := hshort p hp; omega))
  have hsp : Spells x.compiles ci p.raw p.segments := by
    rcases hroot p hp with h | h
    · have := congrArg List.length (hpr'.symm.trans h); simp at this; omega
    · exact h
  have hsq : Spells x.compiles ci q.raw q.segments := by
    rcases hroot q hq with h | h
    · have := congrArg List.length (hqr'.symm.trans h); simp at this
    · exact h
  have hhead : base = [] ∨ base.head? = some slash := by
    obtain ⟨body, h, _⟩ := hsq.slashed
    cases base with
    | nil => exact .inl rfl
    | cons c base => rw [hqr', List.cons_append, List.cons.injEq] at h; exact .inr (by rw [h.1]; rfl)
  have hsp' := hsp.spelled
  have hsq' := hsq.spelled
  rw [hpr', pieces_snoc (by simp) (by simp [hname.1]; decide) hhead] at hsp'
  rw [hqr', pieces_snoc (by decide) (by decide) hhead] at hsq'
  obtain ⟨ss, s', e1, a1, a2⟩ := hsp'.append_inv_left
  obtain ⟨ts, t', e2, b1, b2⟩ := hsq'.append_inv_left
  obtain rfl := pieces_unique a1 b1
  cases a2 with
  | @cons _ s _ _ a3 a4 =>
  cases a4
  cases b2 with
  | @cons _ t _ _ b3 b4 =>
  cases b4
  have htk : t.kind = .single := ((c06_variables ci _ t b3).2.2.1).2 rfl
  have hsk : s.kind = .capture := by
    generalize hv : (123 :: name ++ [125] : Str) = v at a3
    have h58 : (58 : UInt8) ∉ v := by rw [← hv]; simp [hname.2]
    have h123 : v.head? = some 123 := by rw [← hv]; rfl
    cases a3 with
    | capture => rfl
    | single => exact absurd h123 (by decide)
    | multiple => exact absurd h123 (by decide)
    | constraint => simp at h58
    | regex _ h => exact absurd h123 h
    | literal _ _ h => exact absurd h123 h
  have hmult : ∀ c ∈ ss, c.kind ≠ .multiple := by
    intro c hc hk
    obtain ⟨v, hv, hcv⟩ := a1.mem_right hc
    exact hbase (List.mem_of_mem_drop (((c06_variables ci v c hcv).2.2.2).1 hk ▸ hv))
  have hunb : ∀ p ∈ ps, ∀ s ∈ p.segments, Unbraced ci s := by
    intro p hp s hs hk hci src hsrc h123
    rcases hroot p hp with h | h
    · obtain ⟨raw, p0, a, h1, rfl⟩ := registered_parsed hr p hp
      have e := parse_raw h1
      have : raw = b!"/" := by rw [← e]; exact h
      subst this
      simp [parsePattern] at h1
      rw [← h1] at hs
      simp at hs
    · obtain ⟨v, hv, hsv⟩ := h.spelled.mem_right hs
      obtain ⟨_, re, _, e, e'⟩ := (c06_variables ci v s hsv).2.1 hk
      rw [hci] at e'
      rw [e'] at hsrc
      simp only [Bool.false_eq_true, if_false, Option.some.injEq] at hsrc
      subst hsrc
      cases re with
      | nil => cases h123
      | cons c re =>
        simp only [List.head?_cons, Option.some.injEq] at h123
        subst h123
        exact hbrace p hp v hv s.varName (re ++ [125]) (by rw [e]; simp)
  rcases first_with (fun c : Segment => decide (c.kind = .constraint)) ss with h | ⟨a, d, b, rfl, hd, ha⟩
  · exact c101_never_partial hl hr hshort hone hp hq e1 e2 hsk htk (same_refl x ci ss) (fun c hc => ⟨hmult c hc, of_decide_eq_false (h c hc)⟩) hb
  · exact c101_constrained_partial hl hr hshort hone hunb hp hq (ss := a) (ts := a) (cs := b) (ds := b) (d := d) (e := d) (by rw [e1]; simp) (by rw [e2]; simp) hsk htk
      (of_decide_eq_true hd) ⟨rfl, fun _ => .inl rfl, fun _ => rfl⟩ (same_refl x ci a)
      (fun c hc => ⟨hmult c (by simp [hc]), of_decide_eq_false (ha c hc)⟩) (same_refl x false b) (fun c hc => hmult c (by simp [hc])) hb

/-- Two patterns behind two constrained variables, with two others. -/
example : ∃ ps m, Registered plainExt false sortSiblings ps m ∧ patOf plainExt false b!"/a/{n:x}/{k:y}/c/{b}" 1 ∈ ps ∧ patOf plainExt false b!"/a/{n:x}/{k:y}/c/*" 2 ∈ ps ∧
    (∀ path labels, lookup plainExt false m path freshBuf 100 ≠ some (.found (patOf plainExt false b!"/a/{n:x}/{k:y}/c/*" 2) labels)) := by
  obtain ⟨ps, m, h1, h2, h3⟩ := checked_spec (x := plainExt) (ci := false)
    (l := [(b!"/**", 4), (b!"/a/{n:x}/{k:y}/c/*", 2), (b!"/a/{n:x}/{k:y}/c/{b}", 1), (b!"/a/{k:x}/*", 3)])
    (f := fun ps => decide (ps.length = 4 ∧ patOf plainExt false b!"/a/{n:x}/{k:y}/c/{b}" 1 ∈ ps ∧ patOf plainExt false b!"/a/{n:x}/{k:y}/c/*" 2 ∈ ps ∧
      (∀ p ∈ ps, (pieces p.raw).length ≤ 19 ∧ (pieces p.raw).count b!"**" ≤ 1 ∧ ∀ v ∈ pieces p.raw, (123 : UInt8) ∉ v.tail)))
    (by decide +kernel)
  have h2 := of_decide_eq_true h2
  refine ⟨_, m, h1, h2.2.1, h2.2.2.1, ?_⟩
  intro path labels
  refine c101_text_partial plainExt_laws h1 (fun p hp => (h2.2.2.2 p hp).1) (fun p hp => (h2.2.2.2 p hp).2.1) ?_ h2.2.1 h2.2.2.1
    (base := b!"/a/{n:x}/{k:y}/c") (name := b!"b") rfl rfl (by decide) (by decide) (by decide)
  intro p hp v hv name re e
  have := (h2.2.2.2 p hp).2.2 v hv
  rw [e] at this
  simp at this

end Gofre.Props
