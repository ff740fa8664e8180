import Verif.Proofs.Levels

/-! # Described requests are found in a trie of registered patterns -/

namespace Gofre.Path
open Gofre.Spec

variable {x : Ext} {ci : Bool} {srt : List Node → List Node}

/-- Segments accepting the same request segment are the same, constraints apart. -/
theorem literal_settled (hl : FoldLaws x.eqFold) {a b : Segment} {u : Str} (hk : a.kind = b.kind) (hc : a.kind ≠ .constraint) (hr : a.kind ≠ .regex)
    (hu : a.kind ≠ .unknown) (ha : matchText x ci a u = some a.kind) (hb : matchText x ci b u = some b.kind) : shares x ci a b = true := by
  unfold shares
  rw [if_pos hk.symm]
  rw [← hk]
  unfold matchText at ha hb
  rw [← hk] at hb
  cases hka : a.kind <;> simp only [hka] at ha hb hc hr hu ⊢
  · exact absurd rfl hu
  · split at ha
    · split at hb
      · cases ci with
        | false => simp at ha hb ⊢; rw [← ha, ← hb]
        | true => simp at ha hb ⊢; exact hl.trans _ _ _ (hl.symm _ _ ha) hb
      · simp at hb
    · simp at ha
  · exact absurd rfl hc
  · exact absurd rfl hr

theorem onNode_kinds {l : List (Segment × UInt8)} {t : List Segment} (h : OnNode x ci l t) : t.map (·.kind) = l.map (·.1.kind) := by
  induction h with
  | nil => rfl
  | cons h1 _ ih => simp [ih, on_kind h1]

theorem has_of_thru {ns : List Node} {l : List (Segment × Nat)} (h : Thru ns l) : ∀ c ∈ l, Has ns c.1 := by
  induction h with
  | here hm => intro c hc; rw [List.mem_singleton] at hc; subst hc; exact .here hm
  | down hm _ ih =>
    intro c hc
    rcases List.mem_cons.1 hc with rfl | hc
    · exact .here hm
    · exact .down hm (ih c hc)

/-- What the trie of registered patterns offers to the search. -/
theorem fair (hl : FoldLaws x.eqFold) (hp : ∀ l, (srt l).Perm l) {ps : List Pattern} {m : Matcher} (hr : Registered x ci srt ps m)
    (hplain : ∀ p ∈ ps, ∀ s ∈ p.segments, Plain ci s) (hfew : ps.length < 65536) (hstars : ∀ p ∈ ps, StarsLast p.segments)
    {A : Prop} (hs : A → ∀ l, (srt l).Pairwise fun a b => siblingLE a b = true) (hshort : A → ∀ p ∈ ps, (pieces p.raw).length ≤ 19)
    {us0 : List Str}
    (hset : A → Settled x ci ps us0) :
    Every (Fair A (matchText x ci) us0) m.kids := by
  have hh := holds hp hr
  have hpiece := Gofre.Props.registered_piece hr
  refine every_of_level ?_
  intro pre ns hlev
  -- where a node comes from
  have hmade : ∀ n ∈ ns, ∃ p ∈ ps, ∃ t, t <+: p.segments ∧ OnSegs x ci (pre ++ [(n.seg, n.prio)]) t ∧ n.prio = p.priority := by
    intro n hn
    obtain ⟨p, hpp, ⟨t, h1, h2⟩, h3⟩ := registered_thru hp hr _ (hlev.node hn)
    exact ⟨p, hpp, t, h1, h2, by simpa using h3⟩
  have hkinds : ∀ (l : List (Segment × Nat)) (t : List Segment), OnSegs x ci l t → t.map (·.kind) = l.map (·.1.kind) := by
    intro l t h
    induction h with
    | nil => rfl
    | cons h1 _ ih => simp [ih, on_kind h1]
  have hseg : ∀ n ∈ ns, ∃ p ∈ ps, n.seg ∈ p.segments := by
    intro n hn
    exact hh.nodes _ (has_of_thru (hlev.node hn) (n.seg, n.prio) (by simp))
  have hsorted : A → ns.Pairwise fun a b => a.prio ≤ b.prio := fun hA => ((registered_sorted hp (hs hA) hr).level hlev).top
  constructor
  · intro hA
    refine (hsorted hA).imp_of_mem ?_
    intro a b ha hb hab
    obtain ⟨p, hpp, t, h1, h2, h3⟩ := hmade a ha
    obtain ⟨q, hq, t', h1', h2', h3'⟩ := hmade b hb
    have hm := prio_kinds hr hpp hq ⟨hshort hA p hpp, hstars p hpp⟩ ⟨hshort hA q hq, hstars q hq⟩ (by omega)
    obtain ⟨r, hr1⟩ := h1
    obtain ⟨r', hr1'⟩ := h1'
    rw [← hr1, ← hr1', List.map_append, List.map_append, hkinds _ _ h2, hkinds _ _ h2'] at hm
    simp only [List.map_append, List.map_cons, List.map_nil, List.append_assoc, List.cons_append, List.nil_append] at hm
    have := more_specific_drop hm
    exact this 0 _ _ rfl rfl rfl
  · intro hA
    refine ((registered_apart hl hp hr).level hlev).top.imp_of_mem ?_
    intro a b ha hb hab hk hcon u hu ⟨h1, h2⟩
    obtain ⟨p, hpp, hap⟩ := hseg a ha
    obtain ⟨q, hq, hbq⟩ := hseg b hb
    refine hab ⟨hcon, ?_⟩
    have hunk := piece_unknown (hpiece p hpp _ hap)
    by_cases hre : a.seg.kind = .regex
    · have := hset hA p hpp q hq a.seg hap b.seg hbq hre (hk ▸ hre) u hu (fit_of_match (hpiece p hpp _ hap) h1) (fit_of_match (hpiece q hq _ hbq) h2)
      unfold shares
      rw [if_pos hk.symm, ← hk, hre]
      simp only
      cases ci with
      | false => simp at this ⊢; exact this
      | true =>
        simp at this ⊢
        rcases this with h | h
        · rw [h]; exact hl.refl _
        · exact h
    · exact literal_settled hl hk hcon hre hunk h1 h2
  · intro hA
    refine (hsorted hA).imp_of_mem ?_
    intro a b ha hb hab hka hkb l1 p l2 q hl1 hl2
    obtain ⟨l1', g1, e1⟩ := leafP_of_leaf hl1
    obtain ⟨l2', g2, e2⟩ := leafP_of_leaf hl2
    obtain ⟨t1, rfl⟩ := leafP_head g1
    obtain ⟨t2, rfl⟩ := leafP_head g2
    have c1 := registered_constraint hp hr hplain _ _ (hlev.leafP (g1.mono (by intro n hn; rw [List.mem_singleton] at hn; subst hn; exact ha)))
      (a.seg, a.prio) (by simp) hka
    have c2 := registered_constraint hp hr hplain _ _ (hlev.leafP (g2.mono (by intro n hn; rw [List.mem_singleton] at hn; subst hn; exact hb)))
      (b.seg, b.prio) (by simp) hkb
    have whole : ∀ {n : Node} {l : List (Segment × Nat)} {q : Pattern}, n ∈ ns → LeafP [n] l q →
        q ∈ ps ∧ q.segments.map (·.kind) = pre.map (·.1.kind) ++ l.map (·.1.kind) := by
      intro n l q hn hg
      obtain ⟨l', h1, h2⟩ := leaf_of_leafP (hlev.leafP (hg.mono (by intro k hk; rw [List.mem_singleton] at hk; subst hk; exact hn)))
      obtain ⟨h3, h4⟩ := hh.leaf _ _ h1
      refine ⟨h3, ?_⟩
      rw [onNode_kinds h4, ← List.map_append]
      have := congrArg (List.map Segment.kind) h2
      simpa [List.map_map, Function.comp_def] using this
    obtain ⟨m1, k1⟩ := whole ha g1
    obtain ⟨m2, k2⟩ := whole hb g2
    have hm := prio_kinds hr m1 m2 ⟨hshort hA _ m1, hstars _ m1⟩ ⟨hshort hA _ m2, hstars _ m2⟩ (by omega)
    rw [k1, k2] at hm
    have := more_specific_drop hm
    have f1 := congrArg (List.map Segment.kind) e1
    have f2 := congrArg (List.map Segment.kind) e2
    rw [List.map_map, List.map_map] at f1 f2
    unfold kindsOf
    rw [show l1.map (·.1.kind) = _ from f1.symm, show l2.map (·.1.kind) = _ from f2.symm]
    exact this
  · intro n hn hk
    have hkids : n.kids = [] := by
      cases hc : n.kids with
      | nil => rfl
      | cons c cs =>
        have hlev2 := hlev.down hn
        obtain ⟨p, hpp, ⟨t, ⟨r, hr1⟩, h2⟩, _⟩ := registered_thru hp hr _ (hlev2.node (n := c) (by rw [hc]; simp))
        have hk2 := hkinds _ _ h2
        simp only [List.map_append, List.map_cons, List.map_nil, List.append_assoc, List.cons_append, List.nil_append] at hk2
        obtain ⟨a, b, rfl, h3, h4⟩ := List.map_eq_append_iff.1 hk2
        obtain ⟨s, b', rfl, h5, h6⟩ := List.map_eq_cons_iff.1 h4
        have := hstars p hpp a s (b' ++ r) (by rw [← hr1]; simp) (by rw [h5]; exact hk)
        obtain ⟨s', b'', rfl, _, _⟩ := List.map_eq_cons_iff.1 h6
        simp at this
    refine ⟨hkids, ?_⟩
    rcases ((registered_live hp hr).level hlev).top n hn with h | h
    · exact h
    · exact absurd hkids h
  · have := ((registered_few hp hr).level hlev).top
    omega

/-! ### Described segments are accepted -/

theorem glob_snoc_star {R : UInt8 → UInt8 → Prop} {q u : Str} (h : Gofre.Spec.Glob R (q ++ [42]) u) : ∃ v w, u = v ++ w ∧ Gofre.Spec.Glob R q v := by
  generalize hp : q ++ [42] = p at h
  induction h generalizing q with
  | nil => simp at hp
  | any _ ih =>
    cases q with
    | nil => simp at hp
    | cons a q =>
      simp at hp
      obtain ⟨rfl, hp⟩ := hp
      obtain ⟨v, w, rfl, h⟩ := ih hp
      exact ⟨_ :: v, w, rfl, .any h⟩
  | lit h1 h2 h3 _ ih =>
    cases q with
    | nil => simp at hp; exact absurd hp.1.symm h2
    | cons a q =>
      simp at hp
      obtain ⟨rfl, hp⟩ := hp
      obtain ⟨v, w, rfl, h⟩ := ih hp
      exact ⟨_ :: v, w, rfl, .lit h1 h2 h3 h⟩
  | star t _ ih =>
    cases q with
    | nil => exact ⟨[], _, rfl, .nil⟩
    | cons a q =>
      simp at hp
      obtain ⟨rfl, hp⟩ := hp
      obtain ⟨v, w, rfl, h⟩ := ih hp
      exact ⟨t ++ v, w, by simp, .star t h⟩

theorem accepts (hl : FoldLaws x.eqFold) {c s : Segment} {u : Str} (hc : Piece ci c.val c) (hs : Piece ci s.val s) (hpc : Plain ci c)
    (hps : Plain ci s) (hon : c = s ∨ shares x ci s c = true) (hw : c.kind = .regex → WildExact ci c.val u)
    (ha : ci = true → Ascii u ∧ (c.kind = .literal → Ascii c.val)) (hf : Fit x ci s u) : matchText x ci c u = some c.kind := by
  have hfc : Fit x ci c u := by
    rcases hon with rfl | hsh
    · exact hf
    · have hk := shares_kind hsh
      have hcon : s.kind ≠ .constraint := fun h => by rw [not_shares_constraint hc hs hps.1 h] at hsh; cases hsh
      unfold shares at hsh
      rw [if_pos hk] at hsh
      unfold Fit at hf ⊢
      cases hks : s.kind <;> simp only [hks, hk] at hf hsh hcon ⊢
      · cases ci with
        | false => simp at hsh hf; left; rw [hf, hsh]
        | true =>
          simp at hsh
          right
          refine ⟨rfl, ?_⟩
          rcases hf with rfl | ⟨_, hf⟩
          · exact hsh
          · exact hl.trans _ _ _ hf hsh
      · exact absurd rfl hcon
      · cases ci with
        | false => simp at hsh; rw [← hsh]; exact hf
        | true =>
          simp at hsh
          refine glob_congr hf (hl.ascii _ _ (hpc.2 (by rw [hk, hks]) rfl) (hps.2 hks rfl) (hl.symm _ _ hsh))
  have hunk := piece_unknown hc
  unfold matchText
  unfold Fit at hfc
  cases hk : c.kind <;> simp only [hk] at hfc hunk ⊢
  · cases ci with
    | false => simp at hfc; simp [hfc]
    | true =>
      have he : x.eqFold u c.val = true := by
        rcases hfc with h | ⟨_, h⟩
        · rw [h]; exact hl.refl _
        · exact h
      have := (hl.ascii _ _ (ha rfl).1 ((ha rfl).2 hk) he).length
      simp [this, he]
  · obtain ⟨src, h1, h2⟩ := hfc
    simp [h1, h2]
  · have hn : NoDoubleStar c.val := by
      generalize hv : c.val = v at hc
      cases hc <;> simp at hk
      assumption
    have : Glob.regexSegmentMatch ci u c.val = some (.ret true) := by
      by_cases hlast : ∃ q, c.val = q ++ [42]
      · obtain ⟨q, hq⟩ := hlast
        rw [hq] at hn hfc ⊢
        refine (Gofre.Props.c02_trailing_star_partial ci q u hn).2 ?_
        obtain ⟨v, w, h1, h2⟩ := glob_snoc_star hfc
        refine ⟨v, w, h1, ?_, h2⟩
        rintro rfl
        refine (hw hk).2 q hq ?_
        rw [h1]; simpa using h2
      · exact (Gofre.Props.c02_accepts_all_described_partial ci c.val u hn (fun q hq => hlast ⟨q, hq⟩)).2 hfc
    simp [this]

theorem StarsLast.tail {s : Segment} {ss : List Segment} (h : StarsLast (s :: ss)) : StarsLast ss :=
  fun a t b e => h (s :: a) t b (by rw [e]; rfl)

/-- The way of a registered pattern covers the requests it describes. -/
theorem covers_of_describes {p : Pattern} (hmax : p.isGreedy = true ∨ (p.maxMatchable.toNat = p.segments.length ∧ ∀ s ∈ p.segments, s.kind ≠ .multiple))
    {us0 : List Str} : ∀ (ss : List Segment) (i : Nat) (l : List (Segment × UInt8)) (us : List Str),
    All2 (fun c n => (c.1 = n.1 ∨ shares x ci n.1 c.1 = true) ∧ n.2.toNat ≤ c.2.toNat) l (chainPath p i ss) →
    (∀ c s u, (c ∈ l.map (·.1)) → s ∈ ss → u ∈ us0 → (c = s ∨ shares x ci s c = true) → Fit x ci s u → matchText x ci c u = some c.kind ∧ c.kind ≠ .unknown) →
    Describes x ci ss us → StarsLast ss → p.segments.length = i + ss.length → (∀ s ∈ ss, s ∈ p.segments) → us.length ≤ 255 → (∀ u ∈ us, u ∈ us0) →
    Covers (matchText x ci) l us := by
  intro ss
  induction ss with
  | nil =>
    intro i l us h _ hd _ _ _ _ _
    rw [describes_nil] at hd
    subst hd
    cases h
    simp [Covers]
  | cons s ss ih =>
    intro i l us h hacc hd hst hlen hmem hus hsub
    rw [chainPath] at h
    cases h with
    | @cons c _ l _ hr ht =>
      obtain ⟨c, mx⟩ := c
      simp only at hr
      have hk := on_kind hr.1
      have hlim : ∀ k, (s.kind ≠ .multiple → k = ss.length + 1 ∨ p.isGreedy = true) → (s.kind = .multiple → True) → k ≤ 255 → k ≤ mx.toNat := by
        intro k h1 _ h3
        refine Nat.le_trans ?_ hr.2
        unfold maxAt
        rcases hmax with hg | ⟨h4, h5⟩
        · rw [if_pos hg]; simpa using h3
        · by_cases hg : p.isGreedy = true
          · rw [if_pos hg]; simpa using h3
          · rw [if_neg hg]
            have hs := h5 s (hmem s (by simp))
            have h1 := (h1 hs).resolve_right hg
            simp only [List.length_cons] at hlen
            have : p.segments.length < 256 := by rw [← h4]; exact p.maxMatchable.toNat_lt
            rw [UInt8.toNat_sub, h4]
            have : (UInt8.ofNat i).toNat = i := by simp [UInt8.toNat_ofNat']; omega
            rw [this]
            omega
      by_cases hs : s.kind = .multiple
      · have h0 := hst [] s ss rfl hs
        subst h0
        cases ht
        obtain ⟨vs, ws, rfl, h1, h2⟩ := (describes_star hs).1 hd
        rw [describes_nil] at h2
        subst h2
        rw [List.append_nil] at hus hsub hd ⊢
        cases vs with
        | nil => exact absurd rfl (h1 rfl)
        | cons u us =>
          simp only [Covers]
          have hf : Fit x ci s u := by simp [Fit, hs]
          obtain ⟨g1, g2⟩ := hacc c s u (by simp) (by simp) (hsub u (by simp)) hr.1 hf
          refine ⟨?_, g1, g2, fun _ => by trivial, fun h => absurd (hk.trans hs) h⟩
          exact hlim _ (fun h => absurd hs h) (fun _ => trivial) (by simpa using hus)
      · obtain ⟨u, vs, rfl, h1, h2⟩ := (describes_one hs).1 hd
        obtain ⟨g1, g2⟩ := hacc c s u (by simp) (by simp) (hsub u (by simp)) hr.1 h1
        simp only [Covers]
        refine ⟨?_, g1, g2, fun h => absurd (hk.symm.trans h) hs, fun _ => ?_⟩
        · refine hlim _ (fun _ => ?_) (fun _ => trivial) (by simpa using hus)
          rcases hmax with hg | ⟨_, h5⟩
          · exact .inr hg
          · left
            have : ∀ (ss : List Segment) (vs : List Str), (∀ s ∈ ss, s.kind ≠ .multiple) → Describes x ci ss vs → vs.length = ss.length := by
              intro ss
              induction ss with
              | nil => intro vs _ h; rw [describes_nil] at h; simp [h]
              | cons s ss ih =>
                intro vs hn h
                obtain ⟨u, vs', rfl, _, h2⟩ := (describes_one (hn s (by simp))).1 h
                simp [ih vs' (fun t ht => hn t (by simp [ht])) h2]
            rw [this ss vs (fun t ht => h5 t (hmem t (by simp [ht]))) h2]
        · refine ih (i + 1) l vs ht ?_ h2 (StarsLast.tail hst) (by simp at hlen; omega) (fun t ht => hmem t (by simp [ht])) (by simp at hus; omega)
            (fun w hw => hsub w (by simp [hw]))
          intro c' s' w hc' hs' hw
          exact hacc c' s' w (by simp at hc' ⊢; exact .inr hc') (by simp [hs']) hw

/-- A way to a node without pattern continues. -/
theorem mid_thru {ns : List Node} {l : List Segment} (h : Mid ns l) (hlive : Every (fun ns => ∀ n ∈ ns, n.pat.isSome ∨ n.kids ≠ []) ns) :
    ∃ l' c, Thru ns (l' ++ [c]) ∧ l'.map (·.1) = l := by
  induction h with
  | @here ns mx pr seg kids hm =>
    rcases hlive.top _ hm with h | h
    · simp [Node.pat] at h
    · simp only [Node.kids] at h
      cases kids with
      | nil => exact absurd rfl h
      | cons k ks => cases k; exact ⟨[(seg, pr)], _, .down hm (.here List.mem_cons_self), rfl⟩
  | @down ns mx pr seg pat kids l hm _ ih =>
    obtain ⟨l', c, h1, h2⟩ := ih (hlive.kids hm)
    exact ⟨(seg, pr) :: l', c, .down hm h1, by simp [h2]⟩

theorem all2_map_left {α β γ : Type} {R : β → γ → Prop} {f : α → β} : ∀ {l : List α} {m : List γ}, All2 R (l.map f) m → All2 (fun a c => R (f a) c) l m := by
  intro l
  induction l with
  | nil => intro m h; cases h; exact .nil
  | cons a l ih => intro m h; cases h with
    | cons h1 h2 => exact .cons h1 (ih h2)

theorem all2_append_left {α β : Type} {R : α → β → Prop} : ∀ {l l' : List α} {m : List β}, All2 R (l ++ l') m →
    ∃ m1 m2, m = m1 ++ m2 ∧ All2 R l m1 ∧ All2 R l' m2 := by
  intro l
  induction l with
  | nil => intro l' m h; exact ⟨[], m, rfl, .nil, h⟩
  | cons a l ih => intro l' m h; cases h with
    | cons h1 h2 =>
      obtain ⟨m1, m2, rfl, h3, h4⟩ := ih h2
      exact ⟨_ :: m1, m2, rfl, .cons h1 h3, h4⟩

theorem describes_of_all2 : ∀ {ss : List Segment} {us : List Str}, All2 (fun s u => s.kind ≠ .multiple ∧ Fit x ci s u) ss us → Describes x ci ss us := by
  intro ss us h
  induction h with
  | nil => exact describes_nil.2 rfl
  | cons hr _ ih => exact (describes_one hr.1).2 ⟨_, _, rfl, hr.2, ih⟩

/-- The answer for a non-empty request. -/
theorem answer_best (hl : FoldLaws x.eqFold) (hp : ∀ l, (srt l).Perm l) {ps : List Pattern} {m : Matcher} (hr : Registered x ci srt ps m)
    (hplain : ∀ p ∈ ps, ∀ s ∈ p.segments, Plain ci s) (hfew : ps.length < 65536) (hstars : ∀ p ∈ ps, StarsLast p.segments)
    (hlen : ∀ p ∈ ps, (pieces p.raw).length < 256)
    {A : Prop} (hs : A → ∀ l, (srt l).Pairwise fun a b => siblingLE a b = true) (hshort : A → ∀ p ∈ ps, (pieces p.raw).length ≤ 19)
    {us : List Str} (hset : A → Settled x ci ps us) (h19 : us.length ≤ 19) (hex : Faithful ci ps us)
    (hpre : ∀ p ∈ ps, ∀ k, 0 < k → k < p.segments.length → ¬ Describes x ci (p.segments.take k) us) (hne : us ≠ []) :
    (∃ p ls, answer (matchText x ci) m us = .found p ls ∧ p ∈ ps ∧
      (A → ∀ q ∈ ps, Describes x ci q.segments us → MoreSpecific (p.segments.map (·.kind)) (q.segments.map (·.kind)))) ∨
    (answer (matchText x ci) m us = .none ∧ ∀ q ∈ ps, ¬ Describes x ci q.segments us) := by
  have hh := holds hp hr
  have hpiece := Gofre.Props.registered_piece hr
  have hfair := fair hl hp hr hplain hfew hstars hs hshort hset
  have hkl : m.kids.length < 65536 := hfair.top.few
  have hans : answer (matchText x ci) m us = (tryC (matchText x ci) 0 m.kids m.kids.length us).toM := by
    unfold answer
    split
    · exact absurd rfl hne
    · rw [Nat.mod_eq_of_lt hkl]
  -- the way of a pattern that describes the request
  have hway : ∀ q ∈ ps, Describes x ci q.segments us → ∃ l, Leaf m.kids l q ∧ Covers (matchText x ci) l us ∧ kindsOf l = q.segments.map (·.kind) := by
    intro q hq hd
    have hne' : q.segments ≠ [] := by
      intro h
      rw [h, describes_nil] at hd
      exact hne hd
    obtain ⟨l, h1, h2⟩ := hh.added q hq hne'
    have hon := (hh.leaf l q h1).2
    refine ⟨l, h1, ?_, (onNode_kinds hon).symm⟩
    refine covers_of_describes (us0 := us) ?_ q.segments 0 l us h2 ?_ hd (hstars q hq) (by simp) (fun _ h => h) (by omega) (fun _ h => h)
    · obtain ⟨raw, p0, a, hparse, rfl⟩ := registered_parsed hr q hq
      have hraw := parse_raw hparse
      have hnr : raw ≠ b!"/" := by
        rintro rfl
        simp [parsePattern] at hparse
        subst hparse
        exact hne' rfl
      have hc := (Gofre.Props.c05_segments x ci raw p0 hparse hnr (by rw [← hraw]; exact hlen { p0 with attachment := a } hq)).2.2
      by_cases hm : ∃ s ∈ p0.segments, s.kind = .multiple
      · left
        have := hc.1 hm
        simp [Pattern.isGreedy, this]
      · right
        have hm' : ∀ s ∈ p0.segments, s.kind ≠ .multiple := fun s hs h => hm ⟨s, hs, h⟩
        exact ⟨hc.2.1 hm', hm'⟩
    · intro c s u hc hs' hu hcs hf
      obtain ⟨c', hc', rfl⟩ := List.mem_map.1 hc
      obtain ⟨p', hp', hcp⟩ := hh.nodes _ (has_of_leaf h1 c' hc')
      refine ⟨?_, piece_unknown (hpiece p' hp' _ hcp)⟩
      exact accepts hl (hpiece p' hp' _ hcp) (hpiece q hq _ hs') (hplain p' hp' _ hcp) (hplain q hq _ hs') hcs
        (fun hk => hex.wild p' hp' _ hcp hk u hu) (fun hci => ⟨hex.request hci u hu, fun hk => hex.pats hci p' hp' _ hcp hk⟩) hf
  have hbest := tryC_best (A := A) (acc := matchText x ci) (fun _ _ _ => matchText_kind) us _ m.kids (Nat.le_refl _) 0 m.kids.length us hfair (fun _ h => h)
    (fun s hs u hu => by
      obtain ⟨p, hpp, hsp⟩ := hh.nodes s hs
      exact Gofre.Props.matchText_some (hpiece p hpp s hsp) fun hk => (hex.wild p hpp s hsp hk u hu).1)
    (fun l hl' hall => by
      obtain ⟨l', c, h1, h2⟩ := mid_thru hl' (registered_live hp hr)
      obtain ⟨p, hpp, ⟨t, ⟨r, h3⟩, h4⟩, _⟩ := registered_thru hp hr _ h1
      obtain ⟨t1, t2, rfl, h5, h6⟩ := all2_append_left h4
      have h7 := h6.length
      simp only [List.length_cons, List.length_nil] at h7
      rw [← h2] at hall
      have h8 := h5.length
      have h9 := (all2_map_left hall).length
      have h10 := List.length_pos_iff.2 hne
      refine hpre p hpp t1.length (by omega) (by rw [← h3]; simp; omega) ?_
      rw [← h3, List.append_assoc, List.take_left']
      · refine describes_of_all2 (all2_trans h5 (all2_map_left hall) ?_)
        intro c s u hc hs' hu hcs hm
        obtain ⟨p', hp', hcp⟩ := hh.nodes _ (has_of_thru h1 c (by simp [hc]))
        have hsp : s ∈ p.segments := by rw [← h3]; simp [hs']
        refine ⟨by rw [← on_kind hcs]; exact hm.2.2, ?_⟩
        exact fit_shared hl (hpiece p' hp' _ hcp) (hpiece p hpp _ hsp) (hplain p' hp' _ hcp) (hplain p hpp _ hsp) hcs hm.1
      · rfl)
    (by omega) hne (Nat.le_refl _)
  rcases hbest with ⟨p, ls, l, h1, h2, h3, h4⟩ | ⟨h1, h2⟩
  · refine .inl ⟨p, ls, by rw [hans, h1]; rfl, (hh.leaf l p h2).1, ?_⟩
    intro hA q hq hd
    obtain ⟨l', g1, g2, g3⟩ := hway q hq hd
    have := h4 hA l' q g1 g2
    rw [g3] at this
    rw [onNode_kinds (hh.leaf l p h2).2]
    exact this
  · refine .inr ⟨by rw [hans, h1]; rfl, ?_⟩
    intro q hq hd
    obtain ⟨l', g1, g2, _⟩ := hway q hq hd
    exact h2 l' q g1 g2

end Gofre.Path
