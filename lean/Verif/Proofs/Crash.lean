import Verif.Proofs.Single
import Verif.Proofs.Hidden

/-! # When the search for a single pattern crashes -/

namespace Gofre.Path
open Gofre.Spec

variable {U : Type} {acc : Segment → U → Option MT}

/-- The segments lie over the beginning of the request, and something is left. -/
def Ahead (acc : Segment → U → Option MT) (L : List Segment) (us : List U) : Prop := ∃ vs w ws, us = vs ++ w :: ws ∧ Lies acc L vs

theorem ahead_nil {L : List Segment} : ¬ Ahead acc L [] := by
  rintro ⟨vs, w, ws, h, _⟩
  cases vs <;> cases h

theorem ahead_one {s : Segment} (hs : s.kind ≠ .multiple) (hu : s.kind ≠ .unknown) {L : List Segment} {us : List U} :
    Ahead acc (s :: L) us ↔ ∃ u us', us = u :: us' ∧ acc s u = some s.kind ∧ Ahead acc L us' := by
  constructor
  · rintro ⟨vs, w, ws, rfl, h⟩
    obtain ⟨u, vs, rfl, h1, h2⟩ := h.2.2 hs
    exact ⟨u, _, rfl, h1, vs, w, ws, rfl, h2⟩
  · rintro ⟨u, _, rfl, h1, vs, w, ws, rfl, h2⟩
    exact ⟨u :: vs, w, ws, rfl, hu, fun h => absurd h hs, fun _ => ⟨u, vs, rfl, h1, h2⟩⟩

theorem ahead_star {s : Segment} (hs : s.kind = .multiple) {L : List Segment} {us : List U} :
    Ahead acc (s :: L) us ↔ ∃ vs ws, us = vs ++ ws ∧ Ahead acc L ws := by
  constructor
  · rintro ⟨vs, w, ws, rfl, h⟩
    obtain ⟨v1, v2, rfl, h2⟩ := h.2.1 hs
    exact ⟨v1, v2 ++ w :: ws, by simp, v2, w, ws, rfl, h2⟩
  · rintro ⟨v1, _, rfl, v2, w, ws, rfl, h2⟩
    exact ⟨v1 ++ v2, w, ws, by simp, by rw [hs]; simp, fun _ => ⟨v1, v2, rfl, h2⟩, fun h => absurd hs h⟩

/-- Neither a crash nor a failure of this level only. -/
def Res.Ends : Res → Prop
  | .found _ _ => True
  | .abort => True
  | _ => False

theorem starLoop_crash {any : U → Option Bool} {f : List U → Res} {L : List Segment} : ∀ {us : List U},
    (∀ u ∈ us, any u ≠ none) →
    (∀ vs u ws, us = vs ++ u :: ws → any u = some false → ¬ Ahead acc L (u :: ws)) →
    (∀ vs u ws, us = vs ++ u :: ws → (f (u :: ws) = .panic ∧ Ahead acc L (u :: ws)) ∨ (f (u :: ws) = .stop ∧ ¬ Ahead acc L (u :: ws)) ∨
      ((f (u :: ws)).Ends ∧ ∀ vs' ws', u :: ws = vs' ++ ws' → ¬ Ahead acc L ws')) →
    (starLoop any f us = .panic ∧ ∃ vs ws, us = vs ++ ws ∧ Ahead acc L ws) ∨
    ((starLoop any f us).Ends ∧ ∀ vs ws, us = vs ++ ws → ¬ Ahead acc L ws) := by
  intro us
  induction us with
  | nil =>
    intro _ _ _
    refine .inr ⟨trivial, ?_⟩
    intro vs ws h
    obtain ⟨_, rfl⟩ := List.nil_eq_append_iff.1 h
    exact ahead_nil
  | cons u us ih =>
    intro h1 h2 h3
    have hgo : ¬ Ahead acc L (u :: us) → ((starLoop any f us).cons .multiple = .panic ∧ ∃ vs ws, u :: us = vs ++ ws ∧ Ahead acc L ws) ∨
        (((starLoop any f us).cons .multiple).Ends ∧ ∀ vs ws, u :: us = vs ++ ws → ¬ Ahead acc L ws) := by
      intro hn
      rcases ih (fun v hv => h1 v (by simp [hv])) (fun vs v ws e => h2 (u :: vs) v ws (by rw [e]; rfl))
        (fun vs v ws e => h3 (u :: vs) v ws (by rw [e]; rfl)) with ⟨h, vs, ws, e, h'⟩ | ⟨h, h'⟩
      · exact .inl ⟨by rw [h]; rfl, u :: vs, ws, by rw [e]; rfl, h'⟩
      · refine .inr ⟨?_, ?_⟩
        · cases hs : starLoop any f us <;> simp [hs, Res.Ends] at h <;> exact trivial
        · intro vs ws e
          cases vs with
          | nil => simp at e; subst e; exact hn
          | cons v vs => simp at e; exact h' vs ws e.2
    cases ha : any u with
    | none => exact absurd ha (h1 u (by simp))
    | some b =>
      cases b with
      | false => simp only [starLoop, ha]; exact hgo (h2 [] u us rfl ha)
      | true =>
        rw [starLoop_true ha]
        rcases h3 [] u us rfl with ⟨h, h'⟩ | ⟨h, h'⟩ | ⟨h, h'⟩
        · exact .inl ⟨by rw [h]; rfl, [], u :: us, rfl, h'⟩
        · rw [h]; exact hgo h'
        · refine .inr ⟨?_, h'⟩
          cases hs : f (u :: us) <;> simp [hs, Res.Ends] at h <;> exact trivial

theorem tryC_crash (hkind : ∀ s u k, acc s u = some k → k = .unknown ∨ k = s.kind)
    (hstar : ∀ s u, s.kind = .multiple → acc s u = some .multiple) {p : Pattern} {l : List (Segment × UInt8)} {ns : List Node}
    (h : OneWay p l ns) : ∀ (d k : Nat) (us : List U), d + k = 18 →
      (∀ c ∈ l, ∀ u ∈ us, acc c.1 u ≠ none) → (∀ c ∈ l, c.1.kind ≠ .unknown) → (∀ c ∈ l, us.length ≤ c.2.toNat) →
      (∃ c, l[k]? = some c ∧ c.1.kind ≠ .multiple) → us ≠ [] →
      (tryC acc d ns ns.length us = .panic ∧ Ahead acc ((l.take (k + 1)).map (·.1)) us) ∨
      (tryC acc d ns ns.length us = .stop ∧ ¬ Ahead acc ((l.take (k + 1)).map (·.1)) us) ∨
      ((tryC acc d ns ns.length us).Ends ∧ ∀ vs ws, us = vs ++ ws → ¬ Ahead acc ((l.take (k + 1)).map (·.1)) ws) := by
  induction h with
  | @last s mx pr =>
    intro d k us hdk hacc hunk hmax ⟨c, hc, hcm⟩ hne
    have hk : k = 0 := by
      cases k with
      | zero => rfl
      | succ k => simp at hc
    subst hk
    simp at hc
    subst hc
    cases us with
    | nil => exact absurd rfl hne
    | cons u us =>
      have hsm : s.kind ≠ .multiple := hcm
      have hsu : s.kind ≠ .unknown := hunk (s, mx) (by simp)
      rw [List.length_singleton, tryC, tryN_cons, if_neg (by have := hmax (s, mx) (by simp); simp at this; omega)]
      simp only [List.take_succ_cons, List.take_zero, List.map_cons, List.map_nil]
      cases ha : acc s u with
      | none => exact absurd ha (hacc (s, mx) (by simp) u (by simp))
      | some k =>
        by_cases hu : k = .unknown
        · subst hu
          refine .inr (.inl ⟨rfl, fun h => ?_⟩)
          obtain ⟨_, _, e, h1, _⟩ := (ahead_one hsm hsu).1 h
          cases e
          rw [ha] at h1
          exact hsu (Option.some.inj h1).symm
        · have hks : k = s.kind := (hkind _ _ _ ha).resolve_left hu
          subst hks
          rw [byKind_other hsu hsm]
          cases us with
          | nil =>
            refine .inr (.inr ⟨trivial, ?_⟩)
            intro vs ws e h
            obtain ⟨a, b, rfl, _, h2⟩ := (ahead_one hsm hsu).1 h
            have := congrArg List.length e
            simp at this
            have : b = [] := List.eq_nil_of_length_eq_zero (by omega)
            subst this
            exact ahead_nil h2
          | cons v us =>
            have hd : ¬ d + 1 < 19 := by omega
            simp only [ordinary, below, if_neg hd]
            exact .inl ⟨rfl, (ahead_one hsm hsu).2 ⟨u, _, rfl, ha, [], v, us, rfl, rfl⟩⟩
  | @more s mx pr l kids hk ih =>
    intro d k us hdk hacc hunk hmax hstop hne
    have hlne := oneWay_ne hk
    have hkl : kids.length % 65536 = kids.length := by cases hk <;> rfl
    cases us with
    | nil => exact absurd rfl hne
    | cons u us =>
      have hsu : s.kind ≠ .unknown := hunk (s, mx) (by simp)
      rw [List.length_singleton, tryC, tryN_cons, if_neg (by have := hmax (s, mx) (by simp); simp at this; omega)]
      simp only [List.take_succ_cons, List.map_cons]
      cases ha : acc s u with
      | none => exact absurd ha (hacc (s, mx) (by simp) u (by simp))
      | some t =>
        by_cases hu : t = .unknown
        · subst hu
          have hsm : s.kind ≠ .multiple := fun h => by rw [hstar _ _ h] at ha; cases ha
          refine .inr (.inl ⟨rfl, fun h => ?_⟩)
          obtain ⟨_, _, e, h1, _⟩ := (ahead_one hsm hsu).1 h
          cases e
          rw [ha] at h1
          exact hsu (Option.some.inj h1).symm
        · have hks : t = s.kind := (hkind _ _ _ ha).resolve_left hu
          by_cases hm : t = .multiple
          · have hkm : s.kind = .multiple := by rw [← hks]; exact hm
            subst hm
            obtain ⟨k, rfl⟩ : ∃ k', k = k' + 1 := by
              cases k with
              | zero => obtain ⟨c, h1, h2⟩ := hstop; simp at h1; subst h1; exact absurd hkm h2
              | succ k => exact ⟨k, rfl⟩
            have hloop := starLoop_crash (acc := acc) (any := fun v => anyAcc acc v kids) (f := below acc d kids) (L := (l.take (k + 1)).map (·.1)) (us := u :: us)
              (fun v hv => anyAcc_some fun c hc => by
                have : (c.seg, c.max) ∈ l := by
                  cases hk <;> (rw [List.mem_singleton] at hc; subst hc; simp [Node.seg, Node.max])
                exact hacc (c.seg, c.max) (by simp [this]) v hv)
              (fun vs v ws e hf hs => by
                have hhead : ∃ c l' n, l = c :: l' ∧ kids = [n] ∧ n.seg = c.1 := by
                  cases hk
                  · exact ⟨_, _, _, rfl, rfl, rfl⟩
                  · exact ⟨_, _, _, rfl, rfl, rfl⟩
                obtain ⟨c, l', n, rfl, rfl, hn⟩ := hhead
                have hcu : c.1.kind ≠ .unknown := hunk c (by simp)
                have hav : ∃ y, acc n.seg v = some y ∧ y ≠ .unknown := by
                  rw [hn]
                  by_cases hcm : c.1.kind = .multiple
                  · exact ⟨_, hstar _ _ hcm, by simp⟩
                  · rw [List.take_succ_cons, List.map_cons] at hs
                    obtain ⟨_, _, e', h1, _⟩ := (ahead_one hcm hcu).1 hs
                    cases e'
                    exact ⟨_, h1, hcu⟩
                obtain ⟨y, hy, hyu⟩ := hav
                simp only [anyAcc, hy] at hf
                cases y <;> simp at hf hyu)
              (fun vs v ws e => by
                rw [below, if_pos (by omega), hkl]
                have hsub : ∀ w ∈ v :: ws, w ∈ u :: us := fun w hw => by rw [e]; exact List.mem_append_right _ hw
                refine ih (d + 1) k (v :: ws) (by omega) (fun c hc w hw => hacc c (by simp [hc]) w (hsub w hw))
                  (fun c hc => hunk c (by simp [hc])) (fun c hc => ?_) (by simpa using hstop) (by simp)
                have := hmax c (by simp [hc])
                rw [e] at this
                simp at this ⊢
                omega)
            simp only [byKind]
            rw [ifLeaf_no (by rintro ⟨_, h⟩; simp at h)]
            rcases hloop with ⟨h1, h2⟩ | ⟨h1, h2⟩
            · rw [h1]; exact .inl ⟨rfl, (ahead_star hkm).2 h2⟩
            · refine .inr (.inr ⟨?_, ?_⟩)
              · generalize hg : starLoop (fun v => anyAcc acc v kids) (below acc d kids) (u :: us) = R at h1
                cases R <;> simp [Res.Ends] at h1 <;> exact trivial
              · intro vs ws e hs
                obtain ⟨vs', ws', h3, h4⟩ := (ahead_star hkm).1 hs
                exact h2 (vs ++ vs') ws' (by rw [e, h3]; simp) h4
          · have hsm : s.kind ≠ .multiple := by rw [← hks]; exact hm
            subst hks
            rw [byKind_other hu hm]
            cases us with
            | nil =>
              refine .inr (.inl ⟨rfl, fun h => ?_⟩)
              obtain ⟨_, _, e, _, h2⟩ := (ahead_one hsm hsu).1 h
              cases e
              exact ahead_nil h2
            | cons v us =>
              cases k with
              | zero =>
                have hd : ¬ d + 1 < 19 := by omega
                simp only [ordinary, below, if_neg hd]
                exact .inl ⟨rfl, (ahead_one hsm hsu).2 ⟨u, _, rfl, ha, [], v, us, rfl, rfl⟩⟩
              | succ k =>
                simp only [ordinary, below, if_pos (show d + 1 < 19 by omega), hkl]
                rcases ih (d + 1) k (v :: us) (by omega) (fun c hc w hw => hacc c (by simp [hc]) w (by simp at hw ⊢; exact .inr hw))
                  (fun c hc => hunk c (by simp [hc])) (fun c hc => by have := hmax c (by simp [hc]); simp at this ⊢; omega)
                  (by simpa using hstop) (by simp) with ⟨h1, h2⟩ | ⟨h1, h2⟩ | ⟨h1, h2⟩
                · rw [h1]
                  exact .inl ⟨rfl, (ahead_one hsm hsu).2 ⟨u, _, rfl, ha, h2⟩⟩
                · rw [h1]
                  refine .inr (.inl ⟨rfl, fun h => ?_⟩)
                  obtain ⟨_, _, e, _, h3⟩ := (ahead_one hsm hsu).1 h
                  cases e
                  exact h2 h3
                · refine .inr (.inr ⟨?_, ?_⟩)
                  · generalize hg : tryC acc (d + 1) kids kids.length (v :: us) = R at h1
                    cases R <;> simp [Res.Ends] at h1 <;> exact trivial
                  · intro vs ws e h
                    obtain ⟨w, ws', rfl, _, h4⟩ := (ahead_one hsm hsu).1 h
                    cases vs with
                    | nil => simp at e; exact h2 [] ws' (by simp [e.2]) h4
                    | cons a vs => simp at e; exact h2 (vs ++ [w]) ws' (by rw [e.2]; simp) h4

variable {x : Ext} {ci : Bool} {srt : List Node → List Node}

/-- What lies along the segments of a pattern lies along the nodes it shares. -/
theorem lies_of_begins {us0 : List Str} : ∀ {l t : List Segment} {us : List Str}, All2 (fun c s => c = s ∨ shares x ci s c = true) l t →
    (∀ c s u, c ∈ l → s ∈ t → u ∈ us0 → (c = s ∨ shares x ci s c = true) → Fit x ci s u → matchText x ci c u = some c.kind) →
    (∀ c ∈ l, c.kind ≠ .unknown) → (∀ u ∈ us, u ∈ us0) → Begins x ci t us → Lies (matchText x ci) l us := by
  intro l t us h
  induction h generalizing us with
  | nil => intro _ _ _ hl; exact begins_nil.1 hl
  | @cons c s l t hr _ ih =>
    intro hf hu hsub hl
    have hk := on_kind hr
    have ih' := fun {us : List Str} => ih (us := us) (fun c s u hc hs => hf c s u (by simp [hc]) (by simp [hs])) (fun c hc => hu c (by simp [hc]))
    by_cases hs : s.kind = .multiple
    · obtain ⟨vs, ws, h1, h2⟩ := (begins_star hs).1 hl
      exact ⟨hu c (by simp), fun _ => ⟨vs, ws, h1, ih' (fun u hu => hsub u (by rw [h1]; simp [hu])) h2⟩, fun h => absurd (hk.trans hs) h⟩
    · obtain ⟨u, vs, h1, h2, h3⟩ := (begins_one hs).1 hl
      subst h1
      exact ⟨hu c (by simp), fun h => absurd (hk.symm.trans h) hs, fun _ => ⟨u, vs, rfl, hf c s u (by simp) (by simp) (hsub u (by simp)) hr h2,
        ih' (fun u hu => hsub u (by simp [hu])) h3⟩⟩

theorem chainPath_greedy {p : Pattern} (hg : p.isGreedy = true) : ∀ {ss : List Segment} {i : Nat} {n : Segment × UInt8}, n ∈ chainPath p i ss → n.2 = 255
  | [], _, _, h => by simp [chainPath] at h
  | s :: ss, i, n, h => by
    rw [chainPath] at h
    rcases List.mem_cons.1 h with rfl | h
    · simp [maxAt, hg]
    · exact chainPath_greedy hg h

theorem begins_of_describes {ss : List Segment} {us : List Str} (h : Describes x ci ss us) : Begins x ci ss us := by
  obtain ⟨bs, h1, h2, _⟩ := h
  exact ⟨bs, h1, h2⟩

/-- A single pattern with a 19th segment other than `**` crashes the search for exactly those requests of which its first 19
segments describe a beginning. -/
theorem answer_crash (hl : FoldLaws x.eqFold) (hp : ∀ l, (srt l).Perm l) {p : Pattern} {m : Matcher} (hr : Registered x ci srt [p] m)
    (hplain : ∀ s ∈ p.segments, Plain ci s) (hgreedy : p.isGreedy = true) {t : Segment} (ht : p.segments[18]? = some t) (htm : t.kind ≠ .multiple)
    {us : List Str} (h19 : us.length ≤ 19) (hex : Faithful ci [p] us) (hne : us ≠ []) :
    answer (matchText x ci) m us = .panic ↔ ∃ vs ws, us = vs ++ ws ∧ ws ≠ [] ∧ Describes x ci (p.segments.take 19) vs := by
  have hh := holds hp hr
  have hpiece := Gofre.Props.registered_piece hr
  have hlive := registered_live hp hr
  have hfewE : Every (fun ns => ns.length ≤ 1) m.kids := registered_few hp hr
  have hne' : p.segments ≠ [] := by
    intro h
    rw [h] at ht
    cases ht
  obtain ⟨l0, h1, h2⟩ := hh.added p (by simp) hne'
  have hkids : m.kids ≠ [] := by
    intro h
    rw [h] at h1
    cases h1 <;> contradiction
  obtain ⟨l, hone⟩ := oneWay_of (p := p) hfewE hlive p.segments.length (by
    intro l q hl'
    obtain ⟨h3, h4⟩ := hh.leaf l q hl'
    rw [List.mem_singleton] at h3
    subst h3
    exact ⟨rfl, h4.length⟩) hkids
  have := hone.unique h1
  subst this
  have hnode : ∀ c ∈ l0, c.1 ∈ p.segments := by
    intro c hc
    obtain ⟨q, hq, hcq⟩ := hh.nodes _ (has_of_leaf h1 c hc)
    rw [List.mem_singleton] at hq
    subst hq
    exact hcq
  have hon : OnNode x ci l0 p.segments := (hh.leaf _ _ h1).2
  have hon' : All2 (fun c s => c = s ∨ shares x ci s c = true) (l0.map (·.1)) p.segments := All2.map_left.2 hon
  have hon'' : All2 (fun c s => c = s ∨ shares x ci s c = true) ((l0.take 19).map (·.1)) (p.segments.take 19) := by
    rw [List.map_take]; exact all2_take hon' 19
  have hunk : ∀ c ∈ l0, c.1.kind ≠ .unknown := fun c hc => piece_unknown (hpiece p (by simp) _ (hnode c hc))
  have hmax : ∀ c ∈ l0, us.length ≤ c.2.toNat := by
    intro c hc
    obtain ⟨n, hn, _, h3⟩ := h2.mem_left hc
    have : n.2 = 255 := chainPath_greedy hgreedy hn
    rw [this] at h3
    have : (255 : UInt8).toNat = 255 := rfl
    omega
  have hstop : ∃ c, l0[18]? = some c ∧ c.1.kind ≠ .multiple := by
    have hlen := hon.length
    have h3 : 18 < p.segments.length := (List.getElem?_eq_some_iff.1 ht).1
    obtain ⟨b, h4, h5⟩ := hon.getElem? 18 l0[18] (List.getElem?_eq_getElem (by omega))
    rw [ht] at h4
    cases h4
    exact ⟨l0[18], List.getElem?_eq_getElem (by omega), by rw [on_kind h5]; exact htm⟩
  have hans : answer (matchText x ci) m us = (tryC (matchText x ci) 0 m.kids m.kids.length us).toM := by
    unfold answer
    split
    · exact absurd rfl hne
    · rw [Nat.mod_eq_of_lt (by have := hfewE.top; omega)]
  have hcut : p.segments.take 19 = p.segments.take 18 ++ [t] := by
    rw [List.take_add_one, ht]; rfl
  have hiff : Ahead (matchText x ci) ((l0.take 19).map (·.1)) us ↔ ∃ vs ws, us = vs ++ ws ∧ ws ≠ [] ∧ Describes x ci (p.segments.take 19) vs := by
    constructor
    · rintro ⟨vs, w, ws, e, h⟩
      refine ⟨vs, w :: ws, e, by simp, ?_⟩
      have hb : Begins x ci (p.segments.take 19) vs := begins_of_lies (us0 := us) hon'' (fun c s u hc hs hcs hm => by
        obtain ⟨c', hc', rfl⟩ := List.mem_map.1 hc
        have hc' := List.mem_of_mem_take hc'
        have hs := List.mem_of_mem_take hs
        exact fit_shared hl (hpiece p (by simp) _ (hnode c' hc')) (hpiece p (by simp) _ hs) (hplain _ (hnode c' hc')) (hplain _ hs) hcs hm) h
      rw [hcut] at hb ⊢
      exact describes_of_begins htm hb
    · rintro ⟨vs, ws, e, hw, h⟩
      cases ws with
      | nil => exact absurd rfl hw
      | cons w ws =>
        refine ⟨vs, w, ws, e, lies_of_begins (us0 := us) hon'' ?_ ?_ (fun u hu => by rw [e]; simp [hu]) (begins_of_describes h)⟩
        · intro c s u hc hs hu hcs hf
          obtain ⟨c', hc', rfl⟩ := List.mem_map.1 hc
          have hc' := List.mem_of_mem_take hc'
          have hs := List.mem_of_mem_take hs
          exact accepts hl (hpiece p (by simp) _ (hnode c' hc')) (hpiece p (by simp) _ hs) (hplain _ (hnode c' hc')) (hplain _ hs) hcs
            (fun hk => hex.wild p (by simp) _ (hnode c' hc') hk u hu)
            (fun hci => ⟨hex.request hci u hu, fun hk => hex.pats hci p (by simp) _ (hnode c' hc') hk⟩) hf
        · intro c hc
          obtain ⟨c', hc', rfl⟩ := List.mem_map.1 hc
          exact hunk c' (List.mem_of_mem_take hc')
  rw [hans, ← hiff]
  rcases tryC_crash (acc := matchText x ci) (fun _ _ _ => matchText_kind) (fun s u hs => by simp [matchText, hs]) hone 0 18 us rfl
    (fun c hc u hu => Gofre.Props.matchText_some (hpiece p (by simp) _ (hnode c hc)) fun hk => (hex.wild p (by simp) _ (hnode c hc) hk u hu).1)
    hunk hmax hstop hne with ⟨h, h'⟩ | ⟨h, h'⟩ | ⟨h, h'⟩
  · rw [h]; exact ⟨fun _ => h', fun _ => rfl⟩
  · rw [h]; exact ⟨fun e => (by cases e), fun e => absurd e h'⟩
  · refine ⟨fun e => ?_, fun e => absurd e (h' [] us rfl)⟩
    generalize hg : tryC (matchText x ci) 0 m.kids m.kids.length us = R at h e
    cases R <;> simp [Res.Ends] at h <;> cases e

end Gofre.Path
