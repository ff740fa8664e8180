import Verif.Proofs.Shadow
import Verif.Props.Complete

/-! # C101: patterns the README declares unreachable -/

namespace Gofre.Path
open Gofre.Spec

variable {x : Ext} {ci : Bool}

/-- Registered pieces come from their texts: the number of pieces, and of `**`. -/
theorem registered_counts {ps : List Pattern} {m : Matcher} (hr : Registered x ci sortSiblings ps m) {p : Pattern} (hp : p ∈ ps)
    (h19 : (pieces p.raw).length ≤ 19) : (p.segments.map (·.kind)).length ≤ 19 := by
  obtain ⟨raw, p0, a, hp1, rfl⟩ := registered_parsed hr p hp
  simp only [parse_raw hp1] at h19
  exact (Gofre.Props.segments_pieces x ci raw p0 hp1 h19).1

/-- Along the same kinds, a variable has a smaller priority than `*`. -/
theorem capture_before_single {ps : List Pattern} {m : Matcher} (hr : Registered x ci sortSiblings ps m) {p q : Pattern} (hp : p ∈ ps) (hq : q ∈ ps)
    (hp19 : (pieces p.raw).length ≤ 19) (hq19 : (pieces q.raw).length ≤ 19) (hp1 : (pieces p.raw).count b!"**" ≤ 1)
    (hq1 : (pieces q.raw).count b!"**" ≤ 1) {ks r r' : List MT} (hks : MT.multiple ∉ ks)
    (hkp : p.segments.map (·.kind) = ks ++ .capture :: r) (hkq : q.segments.map (·.kind) = ks ++ .single :: r') : p.priority < q.priority := by
  have lp := registered_counts hr hp hp19
  have lq := registered_counts hr hq hq19
  obtain ⟨raw, p0, a, hpp, rfl⟩ := registered_parsed hr p hp
  obtain ⟨raw', q0, a', hqq, rfl⟩ := registered_parsed hr q hq
  simp only [parse_raw hpp, parse_raw hqq] at hp19 hq19 hp1 hq1
  refine ((Gofre.Props.c08_one_double_star_partial x ci raw raw' p0 q0 hpp hqq hp19 hq19 hp1 hq1).1).2 ?_
  simp only at hkp hkq lp lq
  rw [hkp] at lp ⊢
  rw [hkq] at lq ⊢
  exact spread_lt hks lp lq (by decide)

theorem onSegs_kinds {l : List (Segment × Nat)} {t : List Segment} (h : OnSegs x ci l t) : t.map (·.kind) = l.map (·.1.kind) := by
  induction h with
  | nil => rfl
  | cons h1 _ ih => simp [ih, on_kind h1]

theorem chainPath_append (p : Pattern) : ∀ (a : List Segment) (i : Nat) (b : List Segment),
    chainPath p i (a ++ b) = chainPath p i a ++ chainPath p (i + a.length) b := by
  intro a
  induction a with
  | nil => intro i b; rfl
  | cons s a ih => intro i b; simp [chainPath, ih, Nat.add_assoc, Nat.add_comm 1]

/-- The pattern ending in `*` is shadowed by the one ending in a variable. -/
theorem registered_shadowed (hl : FoldLaws x.eqFold)
    {ps : List Pattern} {m : Matcher} (hr : Registered x ci sortSiblings ps m) (hshort : ∀ p ∈ ps, (pieces p.raw).length ≤ 19)
    (hone : ∀ p ∈ ps, (pieces p.raw).count b!"**" ≤ 1) {p q : Pattern} (hpp : p ∈ ps) (hq : q ∈ ps) {ss ts : List Segment} {s t : Segment}
    (hps : p.segments = ss ++ [s]) (hqs : q.segments = ts ++ [t]) (hsk : s.kind = .capture) (htk : t.kind = .single)
    (hsame : All2 (SameSegment x ci) ss ts) (hplain : ∀ c ∈ ss, c.kind ≠ .multiple ∧ c.kind ≠ .constraint) : Every (Shadowed q) m.kids := by
  have hh := holds sortSiblings_perm hr
  have hpiece := Gofre.Props.registered_piece hr
  refine every_of_level ?_
  intro pre ns hlev a n b hns hnq
  have hn : n ∈ ns := by rw [hns]; simp
  -- the way to `q` along this level
  have hleaf : LeafP ns [(n.seg, n.prio)] q := by
    cases n with
    | mk mx pr seg pat kids => simp only [Node.pat] at hnq; subst hnq; exact .here hn
  obtain ⟨l', g1, g2⟩ := leaf_of_leafP (hlev.leafP hleaf)
  obtain ⟨_, hon⟩ := hh.leaf _ _ g1
  have honpre : All2 (fun (c : Segment) s => c = s ∨ shares x ci s c = true) (pre.map (·.1) ++ [n.seg]) (ts ++ [t]) := by
    have : All2 (fun (c : Segment) s => c = s ∨ shares x ci s c = true) (l'.map (·.1)) q.segments := All2.map_left.2 hon
    rw [g2, hqs] at this
    simpa using this
  obtain ⟨ts', t', e1, h3, h4⟩ := honpre.append_inv_left
  have hlast : t' = [t] ∧ ts' = ts := by
    have l2 := h4.length
    obtain ⟨u, rfl⟩ := List.length_eq_one_iff.1 (by simpa using l2.symm)
    have := List.append_inj' e1 rfl
    exact ⟨this.2.symm, this.1.symm⟩
  obtain ⟨rfl, rfl⟩ := hlast
  have hnk : n.seg.kind = .single := by
    cases h4 with
    | cons h _ => rw [on_kind h, htk]
  refine ⟨by rw [hnk]; decide, ?_⟩
  -- the way to `p`
  obtain ⟨l1, k1, k2⟩ := hh.added p hpp (by rw [hps]; simp)
  rw [hps, chainPath_append] at k2
  obtain ⟨u1, u2, rfl, k3, k4⟩ := k2.flip.append_inv_left
  have k3 : All2 (fun (c : Segment × UInt8) (n : Segment × UInt8) => (c.1 = n.1 ∨ shares x ci n.1 c.1 = true) ∧ n.2.toNat ≤ c.2.toNat) u1 (chainPath p 0 ss) := k3.flip
  have kp : All2 (fun (c : Segment × UInt8) (s : Segment) => c.1 = s ∨ shares x ci s c.1 = true) u1 ss := by
    have := (k3.imp (S := fun c n => c.1 = n.1 ∨ shares x ci n.1 c.1 = true) fun _ _ _ _ h => h.1).flip
    have := (All2.map_left (f := fun c : Segment × UInt8 => c.1) (R := fun s (c : Segment × UInt8) => c.1 = s ∨ shares x ci s c.1 = true)).2 this
    rw [chainPath_map] at this
    exact this.flip
  have hal : All2 (fun (u : Segment × UInt8) (v : Segment × Nat) => Alike2 x ci u.1 v.1) u1 pre := by
    have f1 : All2 (fun (u : Segment × UInt8) (s : Segment) => Alike2 x ci u.1 s) u1 ss := by
      refine kp.imp ?_
      intro c s hc hsm h
      obtain ⟨_, h2⟩ := hplain s hsm
      rcases h with h | h
      · rw [h]; exact alike2_refl hl h2
      · exact alike2_symm hl ⟨h2, h⟩
    have f2 : All2 (Alike2 x ci) ss ts' := by
      refine hsame.imp ?_
      intro c s hc hsm h
      exact alike2_of_same hl (hplain c hc).2 (piece_unknown (hpiece p hpp c (by rw [hps]; simp [hc]))) h
    have f3 : All2 (fun (s : Segment) (v : Segment × Nat) => Alike2 x ci s v.1) ts' pre := by
      have := (All2.map_left.1 h3).flip
      refine this.imp ?_
      intro c s hc hsm h
      obtain ⟨c0, hc0, hc1⟩ := hsame.mem_right hc
      have hck : c.kind ≠ .constraint := by rw [← hc1.1]; exact (hplain c0 hc0).2
      rcases h with h | h
      · rw [h]; exact alike2_refl hl hck
      · exact ⟨hck, h⟩
    exact (f1.trans f2 (U := fun (u : Segment × UInt8) (s : Segment) => Alike2 x ci u.1 s) fun _ _ _ _ _ _ h h' => alike2_trans hl h h').trans f3
      fun _ _ _ _ _ _ h h' => alike2_trans hl h h'
  have hu2 : u2 ≠ [] := by
    rintro rfl
    cases k4
  have hlf := same_level hl hlev (registered_apart hl sortSiblings_perm hr) k1 hal hu2
  simp only [chainPath] at k4
  cases k4 with
  | @cons _ c0 _ t0 k5 k6 =>
    cases k6
    generalize hg : [c0] = l at hlf
    cases hlf with
    | down hm hl2 => simp at hg; rw [hg.2] at hl2; cases hl2
    | @here _ mx pr seg _ kids hm =>
      simp only [List.cons.injEq, and_true] at hg
      subst hg
      simp only [Nat.zero_add] at k5
      have hk : seg.kind = .capture := by rw [on_kind k5.1, hsk]
      have hmx : 1 ≤ mx.toNat := by
        refine Nat.le_trans ?_ k5.2
        unfold maxAt
        rcases registered_max hr hpp (by have := hshort p hpp; omega) (by rw [hps]; simp) with h | ⟨h, _⟩
        · rw [if_pos h]; decide
        · split
          · decide
          · rw [hps] at h
            simp only [List.length_append, List.length_cons, List.length_nil] at h
            have : p.maxMatchable.toNat < 256 := p.maxMatchable.toNat_lt
            rw [UInt8.toNat_sub, h]
            have : (UInt8.ofNat ss.length).toNat = ss.length := by simp [UInt8.toNat_ofNat']; omega
            rw [this]
            omega
      -- it comes before
      have hmade : ∀ n ∈ ns, ∃ p ∈ ps, ∃ t, t <+: p.segments ∧ OnSegs x ci (pre ++ [(n.seg, n.prio)]) t ∧ n.prio = p.priority := by
        intro n hn
        obtain ⟨p, hpp, ⟨t, h1, h2⟩, h3⟩ := registered_thru sortSiblings_perm hr _ (hlev.node hn)
        exact ⟨p, hpp, t, h1, h2, by simpa using h3⟩
      obtain ⟨p1, hp1, t1, ⟨r1, a1⟩, b1, c1⟩ := hmade _ hm
      obtain ⟨p2, hp2, t2, ⟨r2, a2⟩, b2, c2⟩ := hmade _ hn
      have d1 := onSegs_kinds b1
      have d2 := onSegs_kinds b2
      simp only [List.map_append, List.map_cons, List.map_nil, Node.seg, hk] at d1
      simp only [List.map_append, List.map_cons, List.map_nil, hnk] at d2
      have hno : MT.multiple ∉ pre.map (·.1.kind) := by
        intro hmem
        obtain ⟨v, hv, hvk⟩ := List.mem_map.1 hmem
        obtain ⟨u, hu, huv⟩ := hal.mem_right hv
        obtain ⟨c, hc, hcu⟩ := kp.mem_left hu
        have : v.1.kind = c.kind := by rw [shares_kind huv.2, on_kind hcu]
        exact (hplain c hc).1 (by rw [← this, hvk])
      have hlt := capture_before_single (r := r1.map (·.kind)) (r' := r2.map (·.kind)) hr hp1 hp2 (hshort _ hp1) (hshort _ hp2) (hone _ hp1) (hone _ hp2) hno
        (by rw [← a1, List.map_append, d1]; simp) (by rw [← a2, List.map_append, d2]; simp)
      rw [← c1, ← c2] at hlt
      have hord := ((registered_sorted sortSiblings_perm sortSiblings_sorted hr).level hlev).top
      rw [hns] at hord hm
      refine ⟨Node.mk mx pr seg (some p) kids, ?_, hk, hmx⟩
      · rcases List.mem_append.1 hm with h | h
        · exact h
        · exfalso
          rcases List.mem_cons.1 h with h | h
          · rw [h] at hlt; omega
          · have := (List.pairwise_cons.1 (List.pairwise_append.1 hord).2.1).1 _ h
            omega

end Gofre.Path

namespace Gofre.Props
open Gofre.Path Gofre.Spec

/-- C101 for a common beginning without `**` and constrained variables, among patterns of at most 19 pieces and one `**` each:
of `…/{b}` and `…/*` the second is never found, in whatever order they and any others are registered, and whatever the request. -/
theorem c101_never_partial {x : Ext} {ci : Bool} (hl : FoldLaws x.eqFold) {ps : List Pattern} {m : Matcher} (hr : Registered x ci sortSiblings ps m)
    (hshort : ∀ p ∈ ps, (pieces p.raw).length ≤ 19) (hone : ∀ p ∈ ps, (pieces p.raw).count b!"**" ≤ 1)
    {p q : Pattern} (hp : p ∈ ps) (hq : q ∈ ps) {ss ts : List Segment} {s t : Segment}
    (hps : p.segments = ss ++ [s]) (hqs : q.segments = ts ++ [t]) (hsk : s.kind = .capture) (htk : t.kind = .single)
    (hsame : All2 (SameSegment x ci) ss ts) (hplain : ∀ c ∈ ss, c.kind ≠ .multiple ∧ c.kind ≠ .constraint)
    {path : Str} {buf : List USeg} (hb : buf.length = 19) {fuel : Nat} {labels : List MT} :
    lookup x ci m path buf fuel ≠ some (.found q labels) := by
  intro h
  obtain ⟨segs, -, f, hf⟩ := lookup_any x ci m path buf hb
  have h := (lookup_fuel h (Nat.le_max_right f fuel)).symm.trans (hf _ (Nat.le_max_left f fuel))
  rw [Option.some.injEq] at h
  have hsh := registered_shadowed hl hr hshort hone hp hq hps hqs hsk htk hsame hplain
  have hnf : ∀ d b us ls, tryC (matchUrl x ci path) d m.kids b us ≠ .found q ls := by
    intro d b us ls
    refine shadowed_not_found (acc := matchUrl x ci path) (fun s u hk => by simp [matchUrl, hk])
      (fun s u h => (matchUrl_kind h).elim (fun h => nomatch h) Eq.symm) _ m.kids (Nat.le_refl _) d b us ls (fun c hc => hsh.kids hc) ?_
    intro a n b he hn
    obtain ⟨h1, h2⟩ := hsh.top a n b he hn
    exact ⟨h1, .inr h2⟩
  have hto : ∀ r : Gofre.Path.Res, (∀ ls, r ≠ .found q ls) → MRes.found q labels ≠ r.toM := by
    intro r hr e
    cases r with
    | found q' l => simp only [Res.toM, MRes.found.injEq] at e; exact hr l (by rw [e.1])
    | next => simp [Res.toM] at e
    | stop => simp [Res.toM] at e
    | abort => simp [Res.toM] at e
    | panic => simp [Res.toM] at e
  unfold answer at h
  split at h
  · rename_i p' hroot
    simp only [MRes.found.injEq] at h
    have := ((holds sortSiblings_perm hr).root _ hroot).2
    rw [← h.1, hqs] at this
    simp at this
  · exact hto _ (hnf _ _ _) h

/-- The README's patterns, registered with two others. -/
example : ∃ ps m, Registered plainExt false sortSiblings ps m ∧ patOf plainExt false b!"/a/{b}" 1 ∈ ps ∧ patOf plainExt false b!"/a/*" 2 ∈ ps ∧
    (∀ path labels, lookup plainExt false m path freshBuf 100 ≠ some (.found (patOf plainExt false b!"/a/*" 2) labels)) := by
  obtain ⟨ps, m, h1, h2, h3⟩ := checked_spec (x := plainExt) (ci := false)
    (l := [(b!"/**", 4), (b!"/a/{b}", 1), (b!"/a/*/c", 3), (b!"/a/*", 2)])
    (f := fun ps => ps == [patOf plainExt false b!"/**" 4, patOf plainExt false b!"/a/{b}" 1, patOf plainExt false b!"/a/*/c" 3, patOf plainExt false b!"/a/*" 2])
    (by decide +kernel)
  rw [beq_iff_eq] at h2
  subst h2
  refine ⟨_, m, h1, by simp, by simp, ?_⟩
  intro path labels
  exact c101_never_partial plainExt_laws h1 (by decide +kernel) (by decide +kernel) (p := patOf plainExt false b!"/a/{b}" 1) (by simp) (by simp)
    (ss := [{ val := b!"a", kind := .literal }]) (ts := [{ val := b!"a", kind := .literal }]) rfl rfl rfl rfl
    (.cons ⟨rfl, fun _ => .inl rfl, fun _ => rfl⟩ .nil) (by decide) (by decide)

/-- C101 fails in general: with `/**/*/a/**` registered as well, `/**/*` is found although `/**/{x}` is there. -/
theorem c101_violated : ∃ ps m, Registered plainExt false sortSiblings ps m ∧ patOf plainExt false b!"/**/{x}" 2 ∈ ps ∧ patOf plainExt false b!"/**/*" 3 ∈ ps ∧
    ∃ labels, lookup plainExt false m b!"/q/r" freshBuf 100 = some (.found (patOf plainExt false b!"/**/*" 3) labels) := by
  obtain ⟨ps, m, h1, h2, h3⟩ := checked_spec (x := plainExt) (ci := false)
    (l := [(b!"/**/*", 3), (b!"/**/{x}", 2), (b!"/**/*/a/**", 1)])
    (f := fun ps => decide (patOf plainExt false b!"/**/{x}" 2 ∈ ps ∧ patOf plainExt false b!"/**/*" 3 ∈ ps)) (by decide +kernel)
  have h2 := of_decide_eq_true h2
  refine ⟨ps, m, h1, h2.1, h2.2, [.multiple, .single], ?_⟩
  rw [← h3]
  decide +kernel

end Gofre.Props
