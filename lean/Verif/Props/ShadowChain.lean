import Verif.Proofs.ShadowChain
import Verif.Props.Shadow

/-! # C101 behind constrained variables -/

namespace Gofre.Path
open Gofre.Spec

variable {x : Ext} {ci : Bool} {U : Type} {acc : Segment → U → Option MT}

/-- Without `**` the segments lie over the request one by one. -/
theorem laid_ones {ss : List Segment} {bs : List (List U)}
    (h : All2 (fun s b => s.kind ≠ .unknown ∧ (s.kind ≠ .multiple → b.length = 1) ∧ ∀ u ∈ b, acc s u = some s.kind) ss bs)
    (hm : ∀ s ∈ ss, s.kind ≠ .multiple) : All2 (fun s u => s.kind ≠ .multiple ∧ s.kind ≠ .unknown ∧ acc s u = some s.kind) ss bs.flatten := by
  induction h with
  | nil => exact .nil
  | @cons s b ss bs h1 _ ih =>
    obtain ⟨u, rfl⟩ := List.length_eq_one_iff.1 (h1.2.1 (hm s (by simp)))
    exact .cons ⟨hm s (by simp), h1.1, h1.2.2 u (by simp)⟩ (ih fun t ht => hm t (by simp [ht]))

theorem leaf_in {ns : List Node} {l : List (Segment × UInt8)} {p : Pattern} (h : Leaf ns l p) : ∃ o ∈ ns, Leaf [o] l p := by
  cases h with
  | here hm => exact ⟨_, hm, .here (List.mem_singleton.2 rfl)⟩
  | down hm hl => exact ⟨_, hm, .down (List.mem_singleton.2 rfl) hl⟩

/-- Segments written alike accept the same. -/
theorem matchUrl_agree (x : Ext) (ci : Bool) (path : Str) {s t : Segment} (u : USeg) (h : SameSegment x false s t) : matchUrl x ci path s u = matchUrl x ci path t u := by
  obtain ⟨h1, h2, h3⟩ := h
  have hv : s.kind = .literal ∨ s.kind = .regex → s.val = t.val := fun h => by simpa using h2 h
  have ht : matchText x ci s = matchText x ci t := by
    funext v
    unfold matchText
    rw [← h1]
    cases hk : s.kind with
    | literal => simp only [hv (.inl hk)]
    | regex => simp only [hv (.inr hk)]
    | constraint => simp only [h3 hk]
    | _ => rfl
  unfold matchUrl
  rw [← h1, ht]
  cases hk : s.kind with
  | literal => simp only [hv (.inl hk)]
  | _ => rfl

theorem alike_kinds {f : Bool} {ss ts : List Segment} (h : All2 (SameSegment x f) ss ts) : ss.map (·.kind) = ts.map (·.kind) := by
  induction h with
  | nil => rfl
  | cons h1 _ ih => simp [h1.1, ih]

/-- Ways that begin alike, without constrained variables, lead to the same level. -/
theorem registered_level (hl : FoldLaws x.eqFold) {ps : List Pattern} {m : Matcher} (hr : Registered x ci sortSiblings ps m)
    {p : Pattern} (hpp : p ∈ ps) {ss ts rest : List Segment} (hps : p.segments = ss ++ rest) (hne : rest ≠ [])
    (hsame : All2 (SameSegment x ci) ss ts) (hplain : ∀ c ∈ ss, c.kind ≠ .constraint)
    {pre : List (Segment × Nat)} {ns : List Node} (hlev : Level m.kids pre ns)
    (h3 : All2 (fun (c : Segment) s => c = s ∨ shares x ci s c = true) (pre.map (·.1)) ts) :
    ∃ l, Leaf ns l p ∧ All2 (fun (c : Segment × UInt8) s => c.1 = s ∨ shares x ci s c.1 = true) l rest := by
  have hh := holds sortSiblings_perm hr
  have hpiece := Gofre.Props.registered_piece hr
  obtain ⟨l1, k1, k2⟩ := hh.added p hpp (by rw [hps]; simp [hne])
  rw [hps, chainPath_append] at k2
  obtain ⟨u1, u2, rfl, k3, k4⟩ := k2.flip.append_inv_left
  have conv : ∀ (u : List (Segment × UInt8)) (i : Nat) (ss : List Segment),
      All2 (fun (n : Segment × UInt8) (c : Segment × UInt8) => (c.1 = n.1 ∨ shares x ci n.1 c.1 = true) ∧ n.2.toNat ≤ c.2.toNat) (chainPath p i ss) u →
      All2 (fun (c : Segment × UInt8) (s : Segment) => c.1 = s ∨ shares x ci s c.1 = true) u ss := by
    intro u i ss k
    have := k.imp (S := fun n c => c.1 = n.1 ∨ shares x ci n.1 c.1 = true) fun _ _ _ _ h => h.1
    have := (All2.map_left (f := fun c : Segment × UInt8 => c.1) (R := fun s (c : Segment × UInt8) => c.1 = s ∨ shares x ci s c.1 = true)).2 this
    rw [chainPath_map] at this
    exact this.flip
  have kp := conv _ _ _ k3
  have hal : All2 (fun (u : Segment × UInt8) (v : Segment × Nat) => Alike2 x ci u.1 v.1) u1 pre := by
    have f1 : All2 (fun (u : Segment × UInt8) (s : Segment) => Alike2 x ci u.1 s) u1 ss := by
      refine kp.imp ?_
      intro c s hc hsm h
      have h2 := hplain s hsm
      rcases h with h | h
      · rw [h]; exact alike2_refl hl h2
      · exact alike2_symm hl ⟨h2, h⟩
    have f2 : All2 (Alike2 x ci) ss ts := by
      refine hsame.imp ?_
      intro c s hc hsm h
      exact alike2_of_same hl (hplain c hc) (piece_unknown (hpiece p hpp c (by rw [hps]; simp [hc]))) h
    have f3 : All2 (fun (s : Segment) (v : Segment × Nat) => Alike2 x ci s v.1) ts pre := by
      have := (All2.map_left.1 h3).flip
      refine this.imp ?_
      intro c s hc hsm h
      obtain ⟨c0, hc0, hc1⟩ := hsame.mem_right hc
      have hck : c.kind ≠ .constraint := by rw [← hc1.1]; exact hplain c0 hc0
      rcases h with h | h
      · rw [h]; exact alike2_refl hl hck
      · exact ⟨hck, h⟩
    exact (f1.trans f2 (U := fun (u : Segment × UInt8) (s : Segment) => Alike2 x ci u.1 s) fun _ _ _ _ _ _ h h' => alike2_trans hl h h').trans f3
      fun _ _ _ _ _ _ h h' => alike2_trans hl h h'
  have kr := conv _ _ _ k4
  have hu2 : u2 ≠ [] := by
    rintro rfl
    have := kr.length
    exact hne (List.length_eq_zero_iff.1 (by simpa using this.symm))
  exact ⟨u2, same_level hl hlev (registered_apart hl sortSiblings_perm hr) k1 hal hu2, kr⟩

end Gofre.Path

namespace Gofre.Props
open Gofre.Path Gofre.Spec

/-- C101 for a common beginning without `**` in which the first constrained variable is `d`: of `…/d/…/{b}` and `…/d/…/*` the second is never
found, whatever else is registered and in whatever order, and whatever the request. Behind `d` the two are written alike; among the patterns
registered none has more than 19 pieces or two `**`, and no constraint starts with a brace. -/
theorem c101_constrained_partial {x : Ext} {ci : Bool} (hl : FoldLaws x.eqFold) {ps : List Pattern} {m : Matcher} (hr : Registered x ci sortSiblings ps m)
    (hshort : ∀ p ∈ ps, (pieces p.raw).length ≤ 19) (hone : ∀ p ∈ ps, (pieces p.raw).count b!"**" ≤ 1) (hbrace : ∀ p ∈ ps, ∀ s ∈ p.segments, Unbraced ci s)
    {p q : Pattern} (hp : p ∈ ps) (hq : q ∈ ps) {ss ts cs ds : List Segment} {d e s t : Segment}
    (hps : p.segments = ss ++ d :: (cs ++ [s])) (hqs : q.segments = ts ++ e :: (ds ++ [t])) (hsk : s.kind = .capture) (htk : t.kind = .single)
    (hdk : d.kind = .constraint) (hde : SameSegment x false d e)
    (hsame : All2 (SameSegment x ci) ss ts) (hplain : ∀ c ∈ ss, c.kind ≠ .multiple ∧ c.kind ≠ .constraint)
    (hrest : All2 (SameSegment x false) cs ds) (hmult : ∀ c ∈ cs, c.kind ≠ .multiple)
    {path : Str} {buf : List USeg} (hb : buf.length = 19) {fuel : Nat} {labels : List MT} :
    lookup x ci m path buf fuel ≠ some (.found q labels) := by
  intro h
  obtain ⟨segs, -, f, hf⟩ := lookup_any x ci m path buf hb
  have h := (lookup_fuel h (Nat.le_max_right f fuel)).symm.trans (hf _ (Nat.le_max_left f fuel))
  rw [Option.some.injEq] at h
  have hh := holds sortSiblings_perm hr
  have hpiece := registered_piece hr
  have hsolid := registered_solid sortSiblings_perm hr hbrace
  have hek : e.kind = .constraint := by rw [← hde.1, hdk]
  have hl1 := hrest.length
  -- the one ending in a variable has the smaller priority
  have hlt : p.priority < q.priority := by
    refine capture_before_single (ks := ss.map (·.kind) ++ d.kind :: cs.map (·.kind)) (r := []) (r' := []) hr hp hq (hshort _ hp) (hshort _ hq) (hone _ hp) (hone _ hq) ?_ ?_ ?_
    · intro hm
      simp only [List.mem_append, List.mem_cons, List.mem_map] at hm
      rcases hm with ⟨c, hc, hk⟩ | hk | ⟨c, hc, hk⟩
      · exact (hplain c hc).1 hk
      · rw [hdk] at hk; cases hk
      · exact hmult c hc hk
    · rw [hps]; simp [hsk]
    · rw [hqs, alike_kinds hsame, alike_kinds hrest, hde.1]; simp [htk]
  have hmax : ∀ j ≤ (cs ++ [s]).length, (cs ++ [s]).length + 1 - j ≤ (maxAt p (ss.length + j)).toNat := by
    intro j hj
    have hlen := registered_counts hr hp (hshort p hp)
    rw [List.length_map] at hlen
    unfold maxAt
    rcases registered_max hr hp (by have := hshort p hp; omega) (by rw [hps]; simp) with h | ⟨h, _⟩
    · rw [if_pos h]
      have : p.segments.length = ss.length + ((cs ++ [s]).length + 1) := by rw [hps]; simp
      have : (255 : UInt8).toNat = 255 := rfl
      omega
    · split
      · have : p.segments.length = ss.length + ((cs ++ [s]).length + 1) := by rw [hps]; simp
        have : (255 : UInt8).toNat = 255 := rfl
        omega
      · have h2 : p.segments.length = ss.length + ((cs ++ [s]).length + 1) := by rw [hps]; simp
        rw [UInt8.toNat_sub, h]
        have : (UInt8.ofNat (ss.length + j)).toNat = ss.length + j := by simp [UInt8.toNat_ofNat']; omega
        rw [this]
        omega
  have hkind : ∀ s u k, matchUrl x ci path s u = some k → k = .unknown ∨ k = s.kind := fun _ _ _ => matchUrl_kind
  have hev : Every (fun ns => ∀ a n c, ns = a ++ n :: c → (∃ l, Leaf [n] l q ∧ l.length = ds.length + 2) →
      ∃ o ∈ a, ∀ d us ls, tryN (matchUrl x ci path) d n us = .found q ls → tryN (matchUrl x ci path) d o us ≠ .next) m.kids := by
    refine every_of_level ?_
    rintro pre ns hlev a n b hns ⟨l, hln, hll⟩
    have hn : n ∈ ns := by rw [hns]; simp
    -- the way to `q`
    obtain ⟨lp, g1, g2⟩ := leafP_of_leaf hln
    obtain ⟨l', g3, g4⟩ := leaf_of_leafP (hlev.leafP (g1.mono (ms := ns) (by simpa using hn)))
    obtain ⟨_, hon⟩ := hh.leaf _ _ g3
    have honpre : All2 (fun (c : Segment) s => c = s ∨ shares x ci s c = true) (pre.map (·.1) ++ l.map (·.1)) (ts ++ e :: (ds ++ [t])) := by
      have : All2 (fun (c : Segment) s => c = s ∨ shares x ci s c = true) (l'.map (·.1)) q.segments := All2.map_left.2 hon
      rw [g4, hqs, List.map_append, g2] at this
      exact this
    obtain ⟨ts', t', e1, h3, h4⟩ := honpre.append_inv_left
    have hsplit := List.append_inj' e1 (by have := h4.length; simp at this ⊢; omega)
    rw [← hsplit.2] at h4
    rw [← hsplit.1] at h3
    have hnseg : (l.map (·.1)).head? = some n.seg := by
      obtain ⟨t, rfl⟩ := leafP_head g1
      rw [← g2]; rfl
    have hnk : n.seg.kind = .constraint := by
      cases hlm : l.map (·.1) with
      | nil => rw [hlm] at hnseg; cases hnseg
      | cons c cs' =>
        rw [hlm] at hnseg h4
        simp only [List.head?_cons, Option.some.injEq] at hnseg
        cases h4 with
        | cons h5 _ => rw [← hnseg, on_kind h5, hek]
    obtain ⟨p0, pre0, rest0, r1, r2⟩ := hsolid.level hlev |>.top n hn hnk
    obtain ⟨rfl, r3⟩ := r1.leaf hln
    have hr0 : rest0.length = ds.length + 1 := by
      have := congrArg List.length r3
      simp at this; omega
    rw [hqs] at r2
    obtain ⟨rfl, r5⟩ := List.append_inj' r2 (by simp; omega)
    simp only [List.cons.injEq] at r5
    obtain ⟨r5, rfl⟩ := r5
    -- the way to `p`
    obtain ⟨u2, k1, k2⟩ := registered_level hl hr hp hps (by simp) hsame (fun c hc => (hplain c hc).2) hlev h3
    obtain ⟨o, ho, k3⟩ := leaf_in k1
    have hok : o.seg.kind = .constraint := by
      obtain ⟨lq, g5, g6⟩ := leafP_of_leaf k3
      obtain ⟨tl, rfl⟩ := leafP_head g5
      cases k2 with
      | @cons c _ cs' _ h5 _ =>
        simp only [List.map_cons, List.cons.injEq] at g6
        rw [g6.1, on_kind h5, hdk]
    obtain ⟨p1, pre1, rest1, w1, w2⟩ := hsolid.level hlev |>.top o ho hok
    obtain ⟨rfl, w3⟩ := w1.leaf k3
    have hr1 : rest1.length = cs.length + 1 := by
      have := congrArg List.length w3
      have := k2.length
      simp at this; simp at *; omega
    rw [hps] at w2
    obtain ⟨rfl, w5⟩ := List.append_inj' w2 (by simp; omega)
    simp only [List.cons.injEq] at w5
    obtain ⟨w5, rfl⟩ := w5
    refine ⟨o, ?_, ?_⟩
    · have hprio : o.prio < n.prio := by rw [w1.prio, r1.prio]; exact hlt
      have hord := ((registered_sorted sortSiblings_perm sortSiblings_sorted hr).level hlev).top
      rw [hns] at hord ho
      rcases List.mem_append.1 ho with h | h
      · exact h
      · exfalso
        rcases List.mem_cons.1 h with h | h
        · rw [h] at hprio; omega
        · have := (List.pairwise_cons.1 (List.pairwise_append.1 hord).2.1).1 _ h
          omega
    · intro dd us ls hfound hnext
      have : tryC (matchUrl x ci path) dd [n] 1 us = .found q ls := by rw [tryC, hfound]
      obtain ⟨l2, bs, h5, _, h6⟩ := tryC_sound hkind matchUrl_star _ [n] (Nat.le_refl _) _ _ _ _ _ this
      obtain ⟨_, h7⟩ := r1.leaf h5
      rw [h7, ← r5] at h6
      have hmult' : ∀ c ∈ e :: (ds ++ [t]), c.kind ≠ .multiple := by
        intro c hc
        simp only [List.mem_cons, List.mem_append, List.not_mem_nil, or_false] at hc
        rcases hc with rfl | hc | rfl
        · rw [hek]; decide
        · obtain ⟨c0, hc0, hc1⟩ := hrest.mem_right hc
          rw [← hc1.1]; exact hmult c0 hc0
        · rw [htk]; decide
      have hacc := laid_ones h6.blocks hmult'
      rw [h6.joined] at hacc
      have hrel : All2 (fun a b => a.kind ≠ .multiple ∧ a.kind ≠ .unknown ∧ ∀ u, matchUrl x ci path b u = some b.kind → matchUrl x ci path a u = some a.kind)
          (d :: (cs ++ [s])) (e :: (ds ++ [t])) := by
        refine .cons ⟨by rw [hdk]; decide, by rw [hdk]; decide, fun u hu => by rw [matchUrl_agree x ci path u hde, hde.1]; exact hu⟩ (All2.append ?_ (.cons ?_ .nil))
        · refine hrest.imp ?_
          intro c c' hc hc' hcc
          exact ⟨hmult c hc, piece_unknown (hpiece p hp c (by rw [hps]; simp [hc])), fun u hu => by rw [matchUrl_agree x ci path u hcc, hcc.1]; exact hu⟩
        · exact ⟨by rw [hsk]; decide, by rw [hsk]; decide, fun u _ => by simp [matchUrl, hsk]⟩
      have hpacc : All2 (fun s u => s.kind ≠ .multiple ∧ s.kind ≠ .unknown ∧ matchUrl x ci path s u = some s.kind) (d :: (cs ++ [s])) us :=
        hrel.trans hacc fun _ _ _ _ _ _ h h' => ⟨h.1, h.2.1, h.2.2 _ h'.2.2⟩
      rcases rest_not_next (acc := matchUrl x ci path) w1 dd us (by rw [← w5]; exact hpacc) hmax with h | ⟨_, h⟩
      · rw [h] at hnext; cases hnext
      · rw [h] at hnext; cases hnext
  have hnf : ∀ d b us ls, tryC (matchUrl x ci path) d m.kids b us ≠ .found q ls := by
    intro d b us ls
    refine blocked_not_found (k := ds.length + 2) q.segments.length m.kids d b us ls (by rw [hqs]; simp) (by omega) ?_ hev hkind matchUrl_star
    intro l hl
    have := (hh.leaf l q hl).2
    have := (All2.map_left (f := fun c : Segment × UInt8 => c.1) (R := fun (c : Segment) s => c = s ∨ shares x ci s c = true)).2 this
    simpa using this.length
  unfold answer at h
  split at h
  · rename_i p' hroot
    simp only [MRes.found.injEq] at h
    have := (hh.root _ hroot).2
    rw [← h.1, hqs] at this
    simp at this
  · generalize hg : tryC (matchUrl x ci path) _ m.kids _ _ = r at h
    cases r with
    | found q' l => simp only [Res.toM, MRes.found.injEq] at h; exact hnf _ _ _ _ (by rw [hg, h.1])
    | next => simp [Res.toM] at h
    | stop => simp [Res.toM] at h
    | abort => simp [Res.toM] at h
    | panic => simp [Res.toM] at h

/-- Two patterns behind a constrained variable, with two others. -/
example : ∃ ps m, Registered plainExt false sortSiblings ps m ∧ patOf plainExt false b!"/a/{n:x}/c/{b}" 1 ∈ ps ∧ patOf plainExt false b!"/a/{k:x}/c/*" 2 ∈ ps ∧
    (∀ path labels, lookup plainExt false m path freshBuf 100 ≠ some (.found (patOf plainExt false b!"/a/{k:x}/c/*" 2) labels)) := by
  obtain ⟨ps, m, h1, h2, h3⟩ := checked_spec (x := plainExt) (ci := false)
    (l := [(b!"/**", 4), (b!"/a/{k:x}/c/*", 2), (b!"/a/{n:x}/c/{b}", 1), (b!"/a/{k:x}/*", 3)])
    (f := fun ps => decide (ps.length = 4 ∧ patOf plainExt false b!"/a/{n:x}/c/{b}" 1 ∈ ps ∧ patOf plainExt false b!"/a/{k:x}/c/*" 2 ∈ ps ∧
      (∀ p ∈ ps, (pieces p.raw).length ≤ 19 ∧ (pieces p.raw).count b!"**" ≤ 1 ∧ ∀ s ∈ p.segments, s.kind = .constraint → s.re = some b!"x")))
    (by decide +kernel)
  have h2 := of_decide_eq_true h2
  refine ⟨_, m, h1, h2.2.1, h2.2.2.1, ?_⟩
  intro path labels
  refine c101_constrained_partial plainExt_laws h1 (fun p hp => (h2.2.2.2 p hp).1) (fun p hp => (h2.2.2.2 p hp).2.1) ?_ h2.2.1 h2.2.2.1
    (ss := [{ val := b!"a", kind := .literal }]) (ts := [{ val := b!"a", kind := .literal }])
    (d := { val := b!"{n:x}", kind := .constraint, varName := b!"n", re := some b!"x" }) (e := { val := b!"{k:x}", kind := .constraint, varName := b!"k", re := some b!"x" })
    (cs := [{ val := b!"c", kind := .literal }]) (ds := [{ val := b!"c", kind := .literal }]) rfl rfl rfl rfl rfl
    ⟨rfl, fun _ => .inr (by simp_all), fun _ => rfl⟩ (.cons ⟨rfl, fun _ => .inl rfl, fun _ => rfl⟩ .nil) (by decide) (.cons ⟨rfl, fun _ => .inl rfl, fun _ => rfl⟩ .nil) (by decide) (by decide)
  intro p hp s hs
  intro hk _ src hsrc
  rw [(h2.2.2.2 p hp).2.2 s hs hk, Option.some.injEq] at hsrc
  subst hsrc
  decide

end Gofre.Props
