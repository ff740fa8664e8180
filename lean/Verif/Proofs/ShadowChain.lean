import Verif.Proofs.Shadow

/-! # Nodes of constrained variables, and patterns found only after others -/

namespace Gofre.Path
open Gofre.Spec

variable {x : Ext} {ci : Bool} {srt : List Node → List Node}

/-- The nodes of the rest of one pattern, and nothing else; the limits may have been raised. -/
inductive Rest (p : Pattern) : Nat → Segment → List Segment → Node → Prop
  | last {i s mx} : (maxAt p i).toNat ≤ mx.toNat → Rest p i s [] (.mk mx p.priority s (some p) [])
  | more {i s s' ss mx n} : (maxAt p i).toNat ≤ mx.toNat → Rest p (i + 1) s' ss n → Rest p i s (s' :: ss) (.mk mx p.priority s none [n])

theorem Rest.seg {p : Pattern} {i : Nat} {s : Segment} {ss : List Segment} {n : Node} (h : Rest p i s ss n) : n.seg = s := by
  cases h <;> rfl

theorem Rest.prio {p : Pattern} {i : Nat} {s : Segment} {ss : List Segment} {n : Node} (h : Rest p i s ss n) : n.prio = p.priority := by
  cases h <;> rfl

theorem rest_chain (p : Pattern) : ∀ (ss : List Segment) (i : Nat) (s : Segment), Rest p i s ss (chain p i s ss) := by
  intro ss
  induction ss with
  | nil => intro i s; exact .last (Nat.le_refl _)
  | cons s' ss ih => intro i s; exact .more (Nat.le_refl _) (ih _ _)

theorem Rest.leaf {p : Pattern} {i : Nat} {s : Segment} {ss : List Segment} {n : Node} (h : Rest p i s ss n) :
    ∀ {l : List (Segment × UInt8)} {q : Pattern}, Leaf [n] l q → q = p ∧ l.map (·.1) = s :: ss := by
  induction h with
  | last _ =>
    intro l q hl
    cases hl with
    | here hm => rw [List.mem_singleton] at hm; cases hm; exact ⟨rfl, rfl⟩
    | down hm hl =>
      rw [List.mem_singleton] at hm; cases hm
      cases hl <;> contradiction
  | more _ _ ih =>
    intro l q hl
    cases hl with
    | here hm => rw [List.mem_singleton] at hm; cases hm
    | down hm hl =>
      rw [List.mem_singleton] at hm; cases hm
      obtain ⟨h1, h2⟩ := ih hl
      exact ⟨h1, by simp [h2]⟩

/-- Below the node of a constrained variable there is the rest of one pattern only. -/
def Solid (n : Node) : Prop :=
  n.seg.kind = .constraint → ∃ p pre rest, Rest p pre.length n.seg rest n ∧ p.segments = pre ++ n.seg :: rest

theorem chain_solid {p : Pattern} : ∀ (ss pre : List Segment) (s : Segment), p.segments = pre ++ s :: ss →
    Solid (chain p pre.length s ss) ∧ Every (fun ns => ∀ n ∈ ns, Solid n) (chain p pre.length s ss).kids := by
  intro ss
  induction ss with
  | nil =>
    intro pre s h
    exact ⟨fun _ => ⟨p, pre, [], rest_chain _ _ _ _, h⟩, .mk (by intro n hn; cases hn) (by intro n hn; cases hn)⟩
  | cons s' ss ih =>
    intro pre s h
    have := ih (pre ++ [s]) s' (by simp [h])
    simp only [List.length_append, List.length_cons, List.length_nil, Nat.zero_add] at this
    refine ⟨fun _ => ⟨p, pre, s' :: ss, rest_chain _ _ _ _, h⟩, .mk ?_ ?_⟩
    · intro n hn
      rw [show (chain p pre.length s (s' :: ss)).kids = [chain p (pre.length + 1) s' ss] from rfl, List.mem_singleton] at hn
      subst hn; exact this.1
    · intro n hn
      rw [show (chain p pre.length s (s' :: ss)).kids = [chain p (pre.length + 1) s' ss] from rfl, List.mem_singleton] at hn
      subst hn; exact this.2

/-- A refused registration at most raises the limits of the nodes of one pattern. -/
theorem rest_refused {p p0 : Pattern} : ∀ (ss : List Segment) (i : Nat) (s : Segment) (j : Nat) (sg : Segment) (rest : List Segment) (n : Node),
    Rest p0 j sg rest n → (insert x ci srt p i s ss [n]).2 = true → ∃ n', (insert x ci srt p i s ss [n]).1 = [n'] ∧ Rest p0 j sg rest n' := by
  intro ss
  induction ss with
  | nil =>
    intro i s j sg rest n hr ht
    rcases insert_cases x ci srt p i s [] [n] with ⟨_, he⟩ | ⟨a, b, mx, pr, seg, pat, ks, hk, hs, _, hc⟩
    · rw [he] at ht; cases ht
    · have : a = [] ∧ b = [] ∧ n = .mk mx pr seg pat ks := by
        cases a with
        | nil => simp only [List.nil_append, List.cons.injEq] at hk; exact ⟨rfl, hk.2.symm, hk.1⟩
        | cons c a => simp at hk
      obtain ⟨rfl, rfl, rfl⟩ := this
      rcases hc with ⟨_, q', rfl, he⟩ | ⟨_, rfl, he⟩ | ⟨_, _, h0, _⟩
      · refine ⟨_, by rw [he]; rfl, ?_⟩
        cases hr with
        | last h => exact .last (Nat.le_trans h (grow_le _ _).1)
      · rw [he] at ht; cases ht
      · cases h0
  | cons s1 ss ih =>
    intro i s j sg rest n hr ht
    rcases insert_cases x ci srt p i s (s1 :: ss) [n] with ⟨_, he⟩ | ⟨a, b, mx, pr, seg, pat, ks, hk, hs, _, hc⟩
    · rw [he] at ht; cases ht
    · have : a = [] ∧ b = [] ∧ n = .mk mx pr seg pat ks := by
        cases a with
        | nil => simp only [List.nil_append, List.cons.injEq] at hk; exact ⟨rfl, hk.2.symm, hk.1⟩
        | cons c a => simp at hk
      obtain ⟨rfl, rfl, rfl⟩ := this
      rcases hc with ⟨h0, _⟩ | ⟨h0, _⟩ | ⟨s', ss', h0, he⟩
      · cases h0
      · cases h0
      · cases h0
        rw [he] at ht
        cases hr with
        | last h =>
          rcases insert_cases x ci srt p (i + 1) s1 ss [] with ⟨_, he'⟩ | ⟨a, b, _, _, _, _, _, hk', _⟩
          · simp only [he'] at ht; cases ht
          · cases a <;> cases hk'
        | more h h' =>
          obtain ⟨n', h1, h2⟩ := ih (i + 1) s1 _ _ _ _ h' ht
          exact ⟨_, by rw [he, h1]; rfl, .more (Nat.le_trans h (grow_le _ _).1) h2⟩

theorem solid_refused {p : Pattern} : ∀ (ss : List Segment) (i : Nat) (s : Segment) (kids : List Node), (insert x ci srt p i s ss kids).2 = true →
    Every (fun ns => ∀ n ∈ ns, Solid n) kids → Every (fun ns => ∀ n ∈ ns, Solid n) (insert x ci srt p i s ss kids).1 := by
  have step : ∀ (a b : List Node) (n n' : Node), Every (fun ns => ∀ n ∈ ns, Solid n) (a ++ n :: b) → Solid n' →
      Every (fun ns => ∀ n ∈ ns, Solid n) n'.kids → Every (fun ns => ∀ n ∈ ns, Solid n) (a ++ n' :: b) := by
    intro a b n n' h h1 h2
    refine .mk ?_ ?_
    · intro c hc
      rw [List.mem_append, List.mem_cons] at hc
      rcases hc with hc | rfl | hc
      · exact h.top c (by simp [hc])
      · exact h1
      · exact h.top c (by simp [hc])
    · intro c hc
      rw [List.mem_append, List.mem_cons] at hc
      rcases hc with hc | rfl | hc
      · exact h.kids (by simp [hc])
      · exact h2
      · exact h.kids (by simp [hc])
  intro ss
  induction ss with
  | nil =>
    intro i s kids ht h
    rcases insert_cases x ci srt p i s [] kids with ⟨_, he⟩ | ⟨a, b, mx, pr, seg, pat, ks, hk, hs, _, hc⟩
    · rw [he] at ht; cases ht
    · subst hk
      have hn : Solid (.mk mx pr seg pat ks) := h.top _ (by simp)
      have hks := h.kids (n := .mk mx pr seg pat ks) (by simp)
      rcases hc with ⟨_, q', rfl, he⟩ | ⟨_, rfl, he⟩ | ⟨_, _, h0, _⟩
      · rw [he]
        refine step _ _ _ _ h ?_ hks
        intro hk
        obtain ⟨p0, pre, rest, h1, h2⟩ := hn hk
        refine ⟨p0, pre, rest, ?_, h2⟩
        simp only [Node.seg] at h1 ⊢
        cases h1 with
        | last hm => exact .last (Nat.le_trans hm (grow_le _ _).1)
      · rw [he] at ht; cases ht
      · cases h0
  | cons s1 ss ih =>
    intro i s kids ht h
    rcases insert_cases x ci srt p i s (s1 :: ss) kids with ⟨_, he⟩ | ⟨a, b, mx, pr, seg, pat, ks, hk, hs, _, hc⟩
    · rw [he] at ht; cases ht
    · subst hk
      have hn : Solid (.mk mx pr seg pat ks) := h.top _ (by simp)
      have hks := h.kids (n := .mk mx pr seg pat ks) (by simp)
      rcases hc with ⟨h0, _⟩ | ⟨h0, _⟩ | ⟨s', ss', h0, he⟩
      · cases h0
      · cases h0
      · cases h0
        rw [he] at ht ⊢
        simp only at ht
        refine step _ _ _ _ h ?_ (ih (i + 1) s1 ks ht hks)
        intro hk
        obtain ⟨p0, pre, rest, h1, h2⟩ := hn hk
        refine ⟨p0, pre, rest, ?_, h2⟩
        simp only [Node.seg] at h1 ⊢
        cases h1 with
        | last _ =>
          rcases insert_cases x ci srt p (i + 1) s1 ss [] with ⟨_, he'⟩ | ⟨a, b, _, _, _, _, _, hk', _⟩
          · simp only [he'] at ht; cases ht
          · cases a <;> cases hk'
        | more hm h' =>
          obtain ⟨n', h3, h4⟩ := rest_refused ss (i + 1) s1 _ _ _ _ h' ht
          rw [h3]
          exact .more (Nat.le_trans hm (grow_le _ _).1) h4

theorem insert_solid (hp : ∀ l, (srt l).Perm l) {p : Pattern} : ∀ (ss pre : List Segment) (s : Segment) (kids : List Node), p.segments = pre ++ s :: ss →
    (∀ t ∈ s :: ss, t.kind = .constraint → ∀ c, Has kids c → shares x ci t c = false) → Every (fun ns => ∀ n ∈ ns, Solid n) kids →
    Every (fun ns => ∀ n ∈ ns, Solid n) (insert x ci srt p pre.length s ss kids).1 := by
  intro ss
  induction ss with
  | nil =>
    intro pre s kids hseg hcon h
    rcases insert_cases x ci srt p pre.length s [] kids with ⟨_, he⟩ | ⟨a, b, mx, pr, seg, pat, ks, hk, hs, _, hc⟩
    · rw [he]
      have hm : ∀ n ∈ srt (kids ++ [chain p pre.length s []]), n ∈ kids ∨ n = chain p pre.length s [] := by
        intro n hn
        simpa using (hp _).mem_iff.1 hn
      refine .mk ?_ ?_
      · intro n hn
        rcases hm n hn with hn | rfl
        · exact h.top n hn
        · exact (chain_solid _ _ _ hseg).1
      · intro n hn
        rcases hm n hn with hn | rfl
        · exact h.kids hn
        · exact (chain_solid _ _ _ hseg).2
    · have hno : seg.kind ≠ .constraint := by
        intro hkk
        rw [hcon s (by simp) (by rw [← shares_kind hs]; exact hkk) seg (by rw [hk]; exact .here (List.mem_append_right _ List.mem_cons_self))] at hs
        cases hs
      have hev : ∀ mx' pat', Every (fun ns => ∀ n ∈ ns, Solid n) (a ++ .mk mx' pr seg pat' ks :: b) := by
        intro mx' pat'
        subst hk
        refine .mk ?_ ?_
        · intro n hn
          rw [List.mem_append, List.mem_cons] at hn
          rcases hn with hn | rfl | hn
          · exact h.top n (by simp [hn])
          · exact fun hkk => absurd hkk hno
          · exact h.top n (by simp [hn])
        · intro n hn
          rw [List.mem_append, List.mem_cons] at hn
          rcases hn with hn | rfl | hn
          · exact h.kids (by simp [hn])
          · exact h.kids (n := .mk mx pr seg pat ks) (by simp)
          · exact h.kids (by simp [hn])
      rcases hc with ⟨_, q', rfl, he⟩ | ⟨_, rfl, he⟩ | ⟨_, _, h0, _⟩
      · rw [he]; exact hev _ _
      · rw [he]; exact hev _ _
      · cases h0
  | cons s1 ss ih =>
    intro pre s kids hseg hcon h
    rcases insert_cases x ci srt p pre.length s (s1 :: ss) kids with ⟨_, he⟩ | ⟨a, b, mx, pr, seg, pat, ks, hk, hs, _, hc⟩
    · rw [he]
      have hm : ∀ n ∈ srt (kids ++ [chain p pre.length s (s1 :: ss)]), n ∈ kids ∨ n = chain p pre.length s (s1 :: ss) := by
        intro n hn
        simpa using (hp _).mem_iff.1 hn
      refine .mk ?_ ?_
      · intro n hn
        rcases hm n hn with hn | rfl
        · exact h.top n hn
        · exact (chain_solid _ _ _ hseg).1
      · intro n hn
        rcases hm n hn with hn | rfl
        · exact h.kids hn
        · exact (chain_solid _ _ _ hseg).2
    · have hno : seg.kind ≠ .constraint := by
        intro hkk
        rw [hcon s (by simp) (by rw [← shares_kind hs]; exact hkk) seg (by rw [hk]; exact .here (List.mem_append_right _ List.mem_cons_self))] at hs
        cases hs
      rcases hc with ⟨h0, _⟩ | ⟨h0, _⟩ | ⟨s', ss', h0, he⟩
      · cases h0
      · cases h0
      · cases h0
        rw [he]
        subst hk
        have hks := ih (pre ++ [s]) s1 ks (by simp [hseg])
          (fun t ht hk c hc => hcon t (List.mem_cons_of_mem _ ht) hk c (.down (List.mem_append_right _ List.mem_cons_self) hc))
          (h.kids (n := .mk mx pr seg pat ks) (by simp))
        simp only [List.length_append, List.length_cons, List.length_nil, Nat.zero_add] at hks
        refine .mk ?_ ?_
        · intro n hn
          rw [List.mem_append, List.mem_cons] at hn
          rcases hn with hn | rfl | hn
          · exact h.top n (by simp [hn])
          · exact fun hkk => absurd hkk hno
          · exact h.top n (by simp [hn])
        · intro n hn
          rw [List.mem_append, List.mem_cons] at hn
          rcases hn with hn | rfl | hn
          · exact h.kids (by simp [hn])
          · exact hks
          · exact h.kids (by simp [hn])

theorem registered_solid (hp : ∀ l, (srt l).Perm l) {ps : List Pattern} {m : Matcher} (h : Registered x ci srt ps m)
    (hplain : ∀ p ∈ ps, ∀ s ∈ p.segments, Unbraced ci s) : Every (fun ns => ∀ n ∈ ns, Solid n) m.kids := by
  induction h with
  | new => exact .mk (by intro n hn; cases hn) (by intro n hn; cases hn)
  | @added ps m m' p raw a hr hpp ha ih =>
    have ih := ih (fun p hp => hplain p (by simp [hp]))
    have hr' := Registered.added raw a hr hpp ha
    unfold addPattern at ha
    split at ha
    · split at ha <;> simp only [Prod.mk.injEq] at ha <;> rw [← ha.1] <;> exact ih
    · rename_i s ss hs
      simp only [Prod.mk.injEq] at ha
      rw [← ha.1]
      refine insert_solid hp ss [] s m.kids hs ?_ ih
      intro t ht htk c hc
      obtain ⟨p', hp', hdp⟩ := (holds hp hr).nodes c hc
      exact not_shares_constraint (Gofre.Props.registered_piece hr p' hp' c hdp) (Gofre.Props.registered_piece hr' _ List.mem_cons_self t (by rw [hs]; exact ht))
        (hplain _ List.mem_cons_self t (by rw [hs]; exact ht)) htk
  | refused raw a _ _ ha ih =>
    have ih := ih hplain
    unfold addPattern at ha
    split at ha
    · split at ha <;> simp only [Prod.mk.injEq] at ha <;> rw [← ha.1] <;> exact ih
    · simp only [Prod.mk.injEq] at ha
      rw [← ha.1]
      exact solid_refused _ _ _ _ ha.2 ih

/-! ### A pattern found after another was passed over -/

variable {U : Type} {acc : Segment → U → Option MT}

theorem tryC_found {d : Nat} {us : List U} {q : Pattern} {ls : List MT} : ∀ {ns : List Node} {b : Nat}, tryC acc d ns b us = .found q ls →
    ∃ a n c, ns = a ++ n :: c ∧ (∀ k ∈ a, tryN acc d k us = .next) ∧ tryN acc d n us = .found q ls := by
  intro ns
  induction ns with
  | nil => intro b h; simp [tryC] at h
  | cons n ns ih =>
    intro b h
    cases b with
    | zero => simp [tryC] at h
    | succ b =>
      rw [tryC] at h
      split at h
      · rename_i hn
        obtain ⟨a, n', c, h1, h2, h3⟩ := ih h
        refine ⟨n :: a, n', c, by rw [h1]; rfl, ?_, h3⟩
        intro k hk
        rcases List.mem_cons.1 hk with rfl | hk
        · exact hn
        · exact h2 k hk
      · exact ⟨[], n, ns, rfl, by simp, h⟩

/-- What a node without the pattern itself finds is found below it. -/
theorem tryN_found {d : Nat} {n : Node} {us : List U} {q : Pattern} {ls : List MT} (h : tryN acc d n us = .found q ls) (hn : n.pat ≠ some q) :
    ∃ d' b' us' ls', tryC acc d' n.kids b' us' = .found q ls' := by
  cases n with
  | mk mx pr seg pat kids =>
    simp only [Node.pat, Node.kids] at hn ⊢
    have hbelow : ∀ vs ls', below acc d kids vs = .found q ls' → ∃ d' b' us' ls', tryC acc d' kids b' us' = .found q ls' := by
      intro vs ls' hb
      unfold below at hb
      split at hb
      · exact ⟨_, _, _, _, hb⟩
      · cases hb
    cases us with
    | nil => simp [tryN] at h
    | cons u us =>
      rw [tryN_cons] at h
      split at h
      · cases h
      · unfold byKind at h
        split at h
        · cases h
        · cases h
        · unfold ifLeaf at h
          split at h
          · simp only [Res.found.injEq] at h
            exact absurd (by rw [h.1]) hn
          · obtain ⟨_, v, ls', _, _, h3, _⟩ := starLoop_found h
            exact hbelow _ _ h3
        · unfold ordinary at h
          split at h
          · split at h
            · simp only [Res.found.injEq] at h
              exact absurd (by rw [h.1]) hn
            · cases h
          · generalize hb : below acc d kids _ = r at h
            cases r with
            | found q' l =>
              simp only [Res.up, Res.found.injEq] at h
              rw [h.1] at hb
              exact hbelow _ _ hb
            | next => cases h
            | stop => cases h
            | abort => cases h
            | panic => cases h

/-- If on all levels something that is not passed over stands before the node on the way to `q`, `k` from the end, then `q` is not found. -/
theorem blocked_not_found {q : Pattern} {k : Nat} : ∀ (K : Nat) (ns : List Node) (d b : Nat) (us : List U) (ls : List MT), k ≤ K → 1 ≤ k →
    (∀ l, Leaf ns l q → l.length = K) →
    Every (fun ns => ∀ a n c, ns = a ++ n :: c → (∃ l, Leaf [n] l q ∧ l.length = k) → ∃ o ∈ a, ∀ d us ls, tryN acc d n us = .found q ls → tryN acc d o us ≠ .next) ns →
    (hkind : ∀ s u k, acc s u = some k → k = .unknown ∨ k = s.kind) →
    (hstar : ∀ s u v, acc s u = some .multiple → acc s v = some .multiple) →
    tryC acc d ns b us ≠ .found q ls := by
  intro K
  induction K with
  | zero => intros; omega
  | succ K ih =>
    intro ns d b us ls hk h1 hK hev hkind hstar h
    obtain ⟨a, n, c, rfl, h2, h3⟩ := tryC_found h
    have hn : ∃ l, Leaf [n] l q := by
      have : tryC acc d [n] 1 us = .found q ls := by rw [tryC, h3]
      obtain ⟨l, _, h4, _⟩ := tryC_sound hkind hstar _ [n] (Nat.le_refl _) _ _ _ _ _ this
      exact ⟨l, h4⟩
    obtain ⟨l, hl⟩ := hn
    have hlen := hK l (hl.mono (by simp))
    by_cases hkk : k = K + 1
    · obtain ⟨o, ho, h5⟩ := hev.top a n c rfl ⟨l, hl, by omega⟩
      exact h5 _ _ _ h3 (h2 o ho)
    · have hnp : n.pat ≠ some q := by
        intro hnp
        cases n with
        | mk mx pr seg pat kids =>
          simp only [Node.pat] at hnp
          subst hnp
          have := hK [(seg, mx)] (.here (pr := pr) (kids := kids) (by simp))
          simp at this
          omega
      obtain ⟨d', b', us', ls', h6⟩ := tryN_found h3 hnp
      refine ih n.kids d' b' us' ls' (by omega) h1 ?_ (hev.kids (by simp)) hkind hstar h6
      intro l' hl'
      cases n with
      | mk mx pr seg pat kids =>
        have := hK ((seg, mx) :: l') (.down (pr := pr) (pat := pat) (kids := kids) (by simp) hl')
        simpa using this

/-- The nodes of one pattern let no request pass that its segments accept. -/
theorem rest_not_next {p : Pattern} {i : Nat} {s : Segment} {ss : List Segment} {n : Node} (hr : Rest p i s ss n) : ∀ (d : Nat) (us : List U),
    All2 (fun s u => s.kind ≠ .multiple ∧ s.kind ≠ .unknown ∧ acc s u = some s.kind) (s :: ss) us →
    (∀ j ≤ ss.length, ss.length + 1 - j ≤ (maxAt p (i + j)).toNat) →
    tryN acc d n us = .panic ∨ ∃ ls, tryN acc d n us = .found p ls := by
  induction hr with
  | last hmx =>
    intro d us h hm
    cases h with
    | cons h1 h2 =>
      cases h2
      right
      have := hm 0 (by simp)
      rw [tryN_cons, if_neg (by simp at this ⊢; omega), h1.2.2, byKind_other h1.2.1 h1.1]
      exact ⟨_, rfl⟩
  | @more i s s' ss mx n hmx _ ih =>
    intro d us h hm
    cases h with
    | @cons _ u _ us h1 h2 =>
      have hlen := h2.length
      have h0 := hm 0 (by simp)
      simp only [List.length_cons, Nat.add_zero] at hlen h0
      rw [tryN_cons, if_neg (by omega), h1.2.2, byKind_other h1.2.1 h1.1]
      cases us with
      | nil => simp at hlen
      | cons v vs =>
        simp only [ordinary, below]
        split
        · have := ih (d + 1) (v :: vs) h2 (by
            intro j hj
            have := hm (j + 1) (by simp; omega)
            simp only [List.length_cons] at this
            rw [show i + 1 + j = i + (j + 1) by omega]
            omega)
          simp only [List.length_cons, List.length_nil, Nat.zero_add, Nat.reduceMod, tryC]
          rcases this with h | ⟨ls, h⟩
          · rw [h]; exact .inl rfl
          · rw [h]; exact .inr ⟨_, rfl⟩
        · exact .inl rfl

end Gofre.Path
