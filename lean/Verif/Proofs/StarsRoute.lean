import Verif.Proofs.Stars

/-! # Described requests are found: from tries to patterns -/

namespace Gofre.Path
open Gofre.Spec

variable {x : Ext} {ci : Bool} {srt : List Node → List Node}

theorem begins_nil {us : List Str} : Begins x ci [] us ↔ us = [] := by
  constructor
  · rintro ⟨bs, h1, h2⟩
    cases h1
    simpa using h2.symm
  · rintro rfl
    exact ⟨[], .nil, rfl⟩

theorem begins_one {s : Segment} (hs : s.kind ≠ .multiple) {ss : List Segment} {us : List Str} :
    Begins x ci (s :: ss) us ↔ ∃ u vs, us = u :: vs ∧ Fit x ci s u ∧ Begins x ci ss vs := by
  constructor
  · rintro ⟨bs, h1, h2⟩
    cases h1 with
    | @cons _ b _ bs hr ht =>
      obtain ⟨u, rfl⟩ := List.length_eq_one_iff.1 (hr.1 hs)
      exact ⟨u, bs.flatten, by simpa using h2.symm, hr.2 u (by simp), bs, ht, rfl⟩
  · rintro ⟨u, vs, rfl, hf, bs, h1, h2⟩
    exact ⟨[u] :: bs, .cons ⟨fun _ => rfl, by simpa using hf⟩ h1, by simp [h2]⟩

theorem begins_star {s : Segment} (hs : s.kind = .multiple) {ss : List Segment} {us : List Str} :
    Begins x ci (s :: ss) us ↔ ∃ vs ws, us = vs ++ ws ∧ Begins x ci ss ws := by
  constructor
  · rintro ⟨bs, h1, h2⟩
    cases h1 with
    | @cons _ b _ bs hr ht => exact ⟨b, bs.flatten, by simpa using h2.symm, bs, ht, rfl⟩
  · rintro ⟨b, ws, rfl, bs, h1, h2⟩
    exact ⟨b :: bs, .cons ⟨fun h => absurd hs h, fun u _ => by simp [Fit, hs]⟩ h1, by simp [h2]⟩

theorem describes_of_begins {a : List Segment} {s : Segment} (hs : s.kind ≠ .multiple) {us : List Str} (h : Begins x ci (a ++ [s]) us) :
    Describes x ci (a ++ [s]) us := by
  obtain ⟨bs, h1, h2⟩ := h
  refine ⟨bs, h1, h2, ?_⟩
  intro t ht hk
  simp at ht
  subst ht
  exact absurd hk hs

theorem describes_ne {ss : List Segment} (h : Describes x ci ss []) : ss = [] := by
  induction ss with
  | nil => rfl
  | cons s ss ih =>
    by_cases hs : s.kind = .multiple
    · obtain ⟨vs, ws, h1, h2, h3⟩ := (describes_star hs).1 h
      have h4 := congrArg List.length h1
      simp at h4
      have h5 : vs = [] := List.eq_nil_of_length_eq_zero (by omega)
      have h6 : ws = [] := List.eq_nil_of_length_eq_zero (by omega)
      subst h6
      exact absurd h5 (h2 (ih h3))
    · obtain ⟨_, _, h1, _⟩ := (describes_one hs).1 h
      cases h1

/-- What lies along nodes lies along the segments of a pattern sharing them. -/
theorem begins_of_lies : ∀ {l t : List Segment} {us us0 : List Str}, All2 (fun c s => c = s ∨ shares x ci s c = true) l t →
    (∀ c s u, c ∈ l → s ∈ t → (c = s ∨ shares x ci s c = true) → matchText x ci c u = some c.kind → Fit x ci s u) →
    Lies (matchText x ci) l us → Begins x ci t us := by
  intro l t us us0 h
  induction h generalizing us with
  | nil => intro _ hl; exact begins_nil.2 hl
  | @cons c s l t hr _ ih =>
    intro hf hl
    have hk := on_kind hr
    by_cases hs : s.kind = .multiple
    · obtain ⟨vs, ws, h1, h2⟩ := hl.2.1 (hk.trans hs)
      exact (begins_star hs).2 ⟨vs, ws, h1, ih (fun c s u hc hs => hf c s u (by simp [hc]) (by simp [hs])) h2⟩
    · obtain ⟨u, vs, h1, h2, h3⟩ := hl.2.2 (by rw [hk]; exact hs)
      exact (begins_one hs).2 ⟨u, vs, h1, hf c s u (by simp) (by simp) hr h2,
        ih (fun c s u hc hs => hf c s u (by simp [hc]) (by simp [hs])) h3⟩

theorem exists_leaf {ns : List Node} (h : Every (fun ns => ∀ n ∈ ns, n.pat.isSome ∨ n.kids ≠ []) ns) (hne : ns ≠ []) : ∃ l q, Leaf ns l q := by
  induction h with
  | @mk ns h1 _ ih =>
    cases ns with
    | nil => exact absurd rfl hne
    | cons n ns =>
      have hn : n ∈ n :: ns := List.mem_cons_self
      rcases h1 n hn with h | h
      · obtain ⟨mx, pr, seg, pat, kids⟩ := n
        obtain ⟨q, hq⟩ := Option.isSome_iff_exists.1 h
        simp only [Node.pat] at hq
        subst hq
        exact ⟨_, q, .here hn⟩
      · obtain ⟨l, q, hl⟩ := ih n hn h
        obtain ⟨mx, pr, seg, pat, kids⟩ := n
        exact ⟨_, q, .down hn hl⟩

theorem toStar_leaf {ns : List Node} {l : List Segment} {ks : List Node} (h : ToStar ns l ks)
    (hlive : Every (fun ns => ∀ n ∈ ns, n.pat.isSome ∨ n.kids ≠ []) ns) :
    ∃ l1 c l2 q, Leaf ns (l1 ++ c :: l2) q ∧ l1.map (·.1) = l ∧ c.1.kind = .multiple ∧ l2 ≠ [] ∧ Leaf ks l2 q := by
  induction h with
  | @here ns mx pr seg pat kids hm h1 h2 =>
    obtain ⟨l, q, hl⟩ := exists_leaf (hlive.kids hm) h2
    refine ⟨[], (seg, mx), l, q, .down hm hl, rfl, h1, ?_, hl⟩
    obtain ⟨_, _, t, rfl, _⟩ := leaf_head hl
    simp
  | @down ns mx pr seg pat kids l ks hm _ ih =>
    obtain ⟨l1, c, l2, q, g1, g2, g3, g4, g5⟩ := ih (hlive.kids hm)
    exact ⟨(seg, mx) :: l1, c, l2, q, .down hm g1, by simp [g2], g3, g4, g5⟩

theorem inner_thru {ns : List Node} {l : List Segment} (h : Inner ns l) (hlive : Every (fun ns => ∀ n ∈ ns, n.pat.isSome ∨ n.kids ≠ []) ns) :
    ∃ l' c d, Thru ns (l' ++ [c] ++ [d]) ∧ (l' ++ [c]).map (·.1) = l ∧ c.1.kind ≠ .multiple := by
  induction h with
  | @here ns mx pr seg kids hm hk =>
    rcases hlive.top _ hm with h | h
    · simp [Node.pat] at h
    · simp only [Node.kids] at h
      cases kids with
      | nil => exact absurd rfl h
      | cons k ks => cases k; exact ⟨[], (seg, pr), _, .down hm (.here List.mem_cons_self), rfl, hk⟩
  | @down ns mx pr seg pat kids l hm _ ih =>
    obtain ⟨l', c, d, h1, h2, h3⟩ := ih (hlive.kids hm)
    exact ⟨(seg, pr) :: l', c, d, .down hm h1, by simpa using h2, h3⟩

theorem along_split {p : Pattern} : ∀ {l1 l2 : List (Segment × UInt8)} {i : Nat} {ss : List Segment}, Along x ci (l1 ++ l2) (chainPath p i ss) →
    ∃ a b, ss = a ++ b ∧ Along x ci l1 (chainPath p i a) ∧ Along x ci l2 (chainPath p (i + a.length) b) := by
  intro l1
  induction l1 with
  | nil => intro l2 i ss h; exact ⟨[], ss, rfl, .nil, by simpa using h⟩
  | cons c l1 ih =>
    intro l2 i ss h
    cases ss with
    | nil => cases h
    | cons s ss =>
      rw [chainPath] at h
      cases h with
      | cons h1 h2 =>
        obtain ⟨a, b, rfl, h3, h4⟩ := ih h2
        refine ⟨s :: a, b, rfl, ?_, ?_⟩
        · rw [chainPath]; exact .cons h1 h3
        · rw [List.length_cons, show i + (a.length + 1) = i + 1 + a.length by omega]; exact h4

theorem along_segs {p : Pattern} : ∀ {l : List (Segment × UInt8)} {i : Nat} {ss : List Segment}, Along x ci l (chainPath p i ss) →
    OnNode x ci l ss := by
  intro l
  induction l with
  | nil =>
    intro i ss h
    cases ss with
    | nil => exact .nil
    | cons s ss => cases h
  | cons c l ih =>
    intro i ss h
    cases ss with
    | nil => cases h
    | cons s ss =>
      rw [chainPath] at h
      cases h with
      | cons h1 h2 => exact .cons h1.1 (ih h2)

theorem describes_length : ∀ {ss : List Segment} {vs : List Str}, (∀ s ∈ ss, s.kind ≠ .multiple) → Describes x ci ss vs → vs.length = ss.length := by
  intro ss
  induction ss with
  | nil => intro vs _ h; rw [describes_nil] at h; simp [h]
  | cons s ss ih =>
    intro vs hn h
    obtain ⟨u, vs', rfl, _, h2⟩ := (describes_one (hn s (by simp))).1 h
    simp [ih (fun t ht => hn t (by simp [ht])) h2]

/-- The way of a registered pattern spans the requests it describes. -/
theorem spans_of_describes {p : Pattern} (hmax : p.isGreedy = true ∨ (p.maxMatchable.toNat = p.segments.length ∧ ∀ s ∈ p.segments, s.kind ≠ .multiple))
    {us0 : List Str} : ∀ (ss : List Segment) (i : Nat) (l : List (Segment × UInt8)) (us : List Str),
    Along x ci l (chainPath p i ss) →
    (∀ c s u, (c ∈ l.map (·.1)) → s ∈ ss → u ∈ us0 → (c = s ∨ shares x ci s c = true) → Fit x ci s u → matchText x ci c u = some c.kind) →
    (∀ c ∈ l, c.1.kind ≠ .unknown) →
    Describes x ci ss us → p.segments.length = i + ss.length → (∀ s ∈ ss, s ∈ p.segments) → us.length ≤ 255 → (∀ u ∈ us, u ∈ us0) →
    Spans (matchText x ci) l us := by
  intro ss
  induction ss with
  | nil =>
    intro i l us h _ _ hd _ _ _ _
    rw [describes_nil] at hd
    subst hd
    cases h
    simp [Spans]
  | cons s ss ih =>
    intro i l us h hacc hunk hd hlen hmem hus hsub
    have hne : us ≠ [] := by
      rintro rfl
      cases describes_ne hd
    have hlen' : p.isGreedy = true ∨ us.length = ss.length + 1 := by
      rcases hmax with h | ⟨_, h⟩
      · exact .inl h
      · right
        have := describes_length (fun s hs => h s (hmem s hs)) hd
        simpa using this
    rw [chainPath] at h
    cases h with
    | @cons c _ l _ hr ht =>
      obtain ⟨c, mx⟩ := c
      simp only at hr
      have hk := on_kind hr.1
      have hlim : us.length ≤ mx.toNat := by
        refine Nat.le_trans ?_ hr.2
        unfold maxAt
        by_cases hg : p.isGreedy = true
        · rw [if_pos hg]; simpa using hus
        · rw [if_neg hg]
          have h4 := (hmax.resolve_left hg).1
          have h1 := hlen'.resolve_left hg
          simp only [List.length_cons] at hlen
          have : p.segments.length < 256 := by rw [← h4]; exact p.maxMatchable.toNat_lt
          rw [UInt8.toNat_sub, h4]
          have : (UInt8.ofNat i).toNat = i := by simp [UInt8.toNat_ofNat']; omega
          rw [this]
          omega
      have hnext : ∀ ws, Describes x ci ss ws → ws.length ≤ 255 → (∀ u ∈ ws, u ∈ us0) → Spans (matchText x ci) l ws := by
        intro ws hd' h1 h2
        refine ih (i + 1) l ws ht ?_ (fun c hc => hunk c (by simp [hc])) hd' (by simp at hlen; omega) (fun t ht => hmem t (by simp [ht])) h1 h2
        intro c' s' w hc' hs' hw
        exact hacc c' s' w (by simp at hc' ⊢; exact .inr hc') (by simp [hs']) hw
      refine ⟨hne, hlim, hunk (c, mx) (by simp), ?_, ?_⟩
      · intro hm _
        obtain ⟨vs, ws, rfl, _, h2⟩ := (describes_star (by rw [← hk]; exact hm)).1 hd
        exact ⟨vs, ws, rfl, hnext ws h2 (by simp at hus; omega) fun u hu => hsub u (by simp [hu])⟩
      · intro hm
        obtain ⟨u, vs, rfl, h1, h2⟩ := (describes_one (by rw [← hk]; exact hm)).1 hd
        exact ⟨u, vs, rfl, hacc c s u (by simp) (by simp) (hsub u (by simp)) hr.1 h1,
          hnext vs h2 (by simp at hus; omega) fun u hu => hsub u (by simp [hu])⟩

/-- The limit of a registered pattern. -/
theorem registered_max {ps : List Pattern} {m : Matcher} (hr : Registered x ci srt ps m) {q : Pattern} (hq : q ∈ ps)
    (hlen : (pieces q.raw).length < 256) (hne : q.segments ≠ []) :
    q.isGreedy = true ∨ (q.maxMatchable.toNat = q.segments.length ∧ ∀ s ∈ q.segments, s.kind ≠ .multiple) := by
  obtain ⟨raw, p0, a, hparse, rfl⟩ := registered_parsed hr q hq
  have hraw := parse_raw hparse
  have hnr : raw ≠ b!"/" := by
    rintro rfl
    simp [parsePattern] at hparse
    subst hparse
    exact hne rfl
  have hc := (Gofre.Props.c05_segments x ci raw p0 hparse hnr (by rw [← hraw]; exact hlen)).2.2
  by_cases hm : ∃ s ∈ p0.segments, s.kind = .multiple
  · left
    have := hc.1 hm
    simp [Pattern.isGreedy, this]
  · right
    have hm' : ∀ s ∈ p0.segments, s.kind ≠ .multiple := fun s hs h => hm ⟨s, hs, h⟩
    exact ⟨hc.2.1 hm', hm'⟩

/-- The answer for a non-empty request, with `**` anywhere in patterns. -/
theorem answer_right (hl : FoldLaws x.eqFold) (hp : ∀ l, (srt l).Perm l) {ps : List Pattern} {m : Matcher} (hr : Registered x ci srt ps m)
    (hplain : ∀ p ∈ ps, ∀ s ∈ p.segments, Plain ci s) (hfew : ps.length < 65536) (hlen : ∀ p ∈ ps, (pieces p.raw).length < 256)
    (hdeep : ∀ p ∈ ps, p.segments.length ≤ 18 ∨ ∀ s ∈ p.segments, s.kind ≠ .multiple)
    {us : List Str} (h19 : us.length ≤ 19) (hex : Faithful ci ps us) (hin : NoneInside x ci ps us) (hstar : StarsContinue x ci ps us) (hne : us ≠ []) :
    (∃ p ls, answer (matchText x ci) m us = .found p ls ∧ p ∈ ps) ∨
    (answer (matchText x ci) m us = .none ∧ ∀ q ∈ ps, ¬ Describes x ci q.segments us) := by
  have hh := holds hp hr
  have hpiece := Gofre.Props.registered_piece hr
  have hlive := registered_live hp hr
  have hfewE : Every (fun ns => ns.length < 65536) m.kids := (registered_few hp hr).imp fun l h => by omega
  have hans : answer (matchText x ci) m us = (tryC (matchText x ci) 0 m.kids m.kids.length us).toM := by
    unfold answer
    split
    · exact absurd rfl hne
    · rw [Nat.mod_eq_of_lt hfewE.top]
  have hacc : ∀ {q : Pattern}, q ∈ ps → ∀ {l : List (Segment × UInt8)}, Leaf m.kids l q → ∀ c s u, c ∈ l.map (·.1) → s ∈ q.segments → u ∈ us →
      (c = s ∨ shares x ci s c = true) → Fit x ci s u → matchText x ci c u = some c.kind := by
    intro q hq l h1 c s u hc hs' hu hcs hf
    obtain ⟨c', hc', rfl⟩ := List.mem_map.1 hc
    obtain ⟨p', hp', hcp⟩ := hh.nodes _ (has_of_leaf h1 c' hc')
    exact accepts hl (hpiece p' hp' _ hcp) (hpiece q hq _ hs') (hplain p' hp' _ hcp) (hplain q hq _ hs') hcs
      (fun hk => hex.wild p' hp' _ hcp hk u hu) (fun hci => ⟨hex.request hci u hu, fun hk => hex.pats hci p' hp' _ hcp hk⟩) hf
  have hunk : ∀ {q : Pattern} {l : List (Segment × UInt8)}, Leaf m.kids l q → ∀ c ∈ l, c.1.kind ≠ .unknown := by
    intro q l h1 c hc
    obtain ⟨p', hp', hcp⟩ := hh.nodes _ (has_of_leaf h1 c hc)
    exact piece_unknown (hpiece p' hp' _ hcp)
  have hway : ∀ q ∈ ps, Describes x ci q.segments us → Taken (matchText x ci) m.kids us := by
    intro q hq hd
    have hne' : q.segments ≠ [] := by
      intro h
      rw [h, describes_nil] at hd
      exact hne hd
    obtain ⟨l, h1, h2⟩ := hh.added q hq hne'
    exact ⟨l, q, h1, spans_of_describes (us0 := us) (registered_max hr hq (hlen q hq) hne') q.segments 0 l us h2 (hacc hq h1) (hunk h1) hd (by simp)
      (fun _ h => h) (by omega) (fun _ h => h)⟩
  have hright := tryC_right (acc := matchText x ci) (fun _ _ _ => matchText_kind) (fun s u hs => by simp [matchText, hs]) _ m.kids (Nat.le_refl _)
    0 m.kids.length us hfewE hlive
    (fun s hs u hu => by
      obtain ⟨p, hpp, hsp⟩ := hh.nodes s hs
      exact Gofre.Props.matchText_some (hpiece p hpp s hsp) fun hk => (hex.wild p hpp s hsp hk u hu).1)
    (fun l hl' hlies => by
      obtain ⟨l', c, d, h1, h2, h3⟩ := inner_thru hl' hlive
      obtain ⟨p, hpp, ⟨t, ⟨r, h4⟩, h5⟩, _⟩ := registered_thru hp hr _ h1
      obtain ⟨t1, t2, rfl, h6, h7⟩ := all2_append_left h5
      obtain ⟨a, b, rfl, h8, h9⟩ := all2_append_left h6
      cases h9 with
      | cons h10 h11 =>
        rename_i s b'
        cases h11
        cases h7 with
        | cons h12 h13 =>
          rename_i s' b''
          cases h13
          refine hin p hpp a s ([s'] ++ r) (by rw [← h4]; simp) (by rw [← on_kind h10]; exact h3) (by simp) ?_
          refine describes_of_begins (by rw [← on_kind h10]; exact h3) ?_
          rw [← h2] at hlies
          refine begins_of_lies (us0 := us) (All2.map_left.2 h6) ?_ hlies
          intro c' s1 u hc' hs1 hcs hm
          obtain ⟨c'', hc'', rfl⟩ := List.mem_map.1 hc'
          obtain ⟨p', hp', hcp⟩ := hh.nodes _ (has_of_thru h1 c'' (by simp at hc'' ⊢; rcases hc'' with h | h <;> simp [h]))
          have hsp : s1 ∈ p.segments := by rw [← h4]; simp at hs1 ⊢; rcases hs1 with h | h <;> simp [h]
          exact fit_shared hl (hpiece p' hp' _ hcp) (hpiece p hpp _ hsp) (hplain p' hp' _ hcp) (hplain p hpp _ hsp) hcs hm)
    (fun l ks vs ws hts he hws hlies => by
      obtain ⟨l1, c, l2, q, h1, h2, h3, h4, h5⟩ := toStar_leaf hts hlive
      have hq := (hh.leaf _ _ h1).1
      have hal := registered_along hp hr _ _ h1
      obtain ⟨a, b0, hab, h6, h7⟩ := along_split hal
      cases b0 with
      | nil => cases h7
      | cons s b =>
        rw [chainPath] at h7
        cases h7 with
        | cons h8 h9 =>
          have hks := on_kind h8.1
          have hb : b ≠ [] := by
            rintro rfl
            cases h9
            exact h4 rfl
          have hbeg : Begins x ci a vs := by
            rw [← h2] at hlies
            refine begins_of_lies (us0 := us) (All2.map_left.2 (along_segs h6)) ?_ hlies
            intro c' s1 u hc' hs1 hcs hm
            obtain ⟨c'', hc'', rfl⟩ := List.mem_map.1 hc'
            obtain ⟨p', hp', hcp⟩ := hh.nodes _ (has_of_leaf h1 c'' (by simp [hc'']))
            have hsp : s1 ∈ q.segments := by rw [hab]; simp [hs1]
            exact fit_shared hl (hpiece p' hp' _ hcp) (hpiece q hq _ hsp) (hplain p' hp' _ hcp) (hplain q hq _ hsp) hcs hm
          obtain ⟨vs', ws', h10, h11⟩ := hstar q hq a s b hab (by rw [← hks]; exact h3) hb vs ws he hws hbeg
          refine ⟨vs', ws', h10, l2, q, h5, ?_⟩
          have hsub : ∀ u ∈ ws', u ∈ us := by intro u hu; rw [he, h10]; simp [hu]
          refine spans_of_describes (us0 := us) (registered_max hr hq (hlen q hq) (by rw [hab]; simp)) b _ l2 ws' h9 ?_ ?_ h11
            (by rw [hab]; simp; omega) (fun t ht => by rw [hab]; simp [ht]) (by
              have := congrArg List.length he
              have := congrArg List.length h10
              simp at *
              omega) hsub
          · intro c' s' u hc' hs' hu
            exact hacc hq h1 c' s' u (by simp at hc' ⊢; exact .inr (.inr hc')) (by rw [hab]; simp [hs']) hu
          · intro c' hc'
            exact hunk h1 c' (by simp [hc']))
    (fun l hl' => by
      obtain ⟨p, hpp, ⟨t, ⟨r, h4⟩, h5⟩, _⟩ := registered_thru hp hr _ hl'
      have hlt := h5.length
      rcases hdeep p hpp with h | h
      · left
        rw [← h4] at h
        simp at h
        omega
      · right
        refine ⟨by omega, ?_⟩
        intro c hc
        obtain ⟨s, hs, hcs⟩ := h5.mem_left hc
        rw [on_kind hcs]
        exact h s (by rw [← h4]; simp [hs]))
    hne (Nat.le_refl _)
  rcases hright with ⟨p, ls, l, h1, h2⟩ | ⟨h1, h2⟩
  · exact .inl ⟨p, ls, by rw [hans, h1]; rfl, (hh.leaf l p h2).1⟩
  · exact .inr ⟨by rw [hans, h1]; rfl, fun q hq hd => h2 (hway q hq hd)⟩

end Gofre.Path
