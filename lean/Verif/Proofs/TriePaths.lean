import Verif.Proofs.Describes

/-! # Further facts about the trie: where its nodes come from, how siblings are arranged -/

namespace Gofre.Path
open Gofre.Spec

/-- A way down the trie, with the segments and priorities of the nodes passed. -/
inductive Thru : List Node → List (Segment × Nat) → Prop
  | here {ns mx pr seg pat kids} : Node.mk mx pr seg pat kids ∈ ns → Thru ns [(seg, pr)]
  | down {ns mx pr seg pat kids l} : Node.mk mx pr seg pat kids ∈ ns → Thru kids l → Thru ns ((seg, pr) :: l)

theorem Thru.mono {ns ms : List Node} (h : ∀ n ∈ ns, n ∈ ms) {l : List (Segment × Nat)} (hs : Thru ns l) : Thru ms l := by
  cases hs with
  | here hm => exact .here (h _ hm)
  | down hm hl => exact .down (h _ hm) hl

theorem Thru.append {ns ms : List Node} {l : List (Segment × Nat)} : Thru (ns ++ ms) l ↔ Thru ns l ∨ Thru ms l := by
  constructor
  · intro h
    cases h with
    | here hm =>
      rcases List.mem_append.1 hm with h | h
      · exact .inl (.here h)
      · exact .inr (.here h)
    | down hm hl =>
      rcases List.mem_append.1 hm with h | h
      · exact .inl (.down h hl)
      · exact .inr (.down h hl)
  · rintro (h | h)
    · exact h.mono (by intro n hn; simp [hn])
    · exact h.mono (by intro n hn; simp [hn])

theorem Thru.cons_split {n : Node} {ns : List Node} {l : List (Segment × Nat)} : Thru (n :: ns) l ↔ Thru [n] l ∨ Thru ns l :=
  Thru.append (ns := [n])

theorem not_thru_nil {l : List (Segment × Nat)} : ¬ Thru [] l := by
  intro h
  cases h with
  | here h => cases h
  | down h _ => cases h

/-- The segments of a way are those of the pattern, or segments they share a node with. -/
abbrev OnSegs (x : Ext) (ci : Bool) : List (Segment × Nat) → List Segment → Prop :=
  All2 fun c s => c.1 = s ∨ shares x ci s c.1 = true

/-- The way ends at a node created for the pattern `p`, along its segments `ss`. -/
def Made (x : Ext) (ci : Bool) (p : Pattern) (ss : List Segment) (l : List (Segment × Nat)) : Prop :=
  (∃ t, t <+: ss ∧ OnSegs x ci l t) ∧ l.getLast?.map (·.2) = some p.priority

theorem Made.cons {x : Ext} {ci : Bool} {p : Pattern} {ss : List Segment} {l : List (Segment × Nat)} {s c : Segment} {pr : Nat}
    (h : Made x ci p ss l) (hc : c = s ∨ shares x ci s c = true) : Made x ci p (s :: ss) ((c, pr) :: l) := by
  obtain ⟨⟨t, h1, h2⟩, h3⟩ := h
  refine ⟨⟨s :: t, by simpa using h1, .cons hc h2⟩, ?_⟩
  cases l with
  | nil => simp at h3
  | cons a l => rw [List.getLast?_cons_cons]; exact h3

theorem thru_chain (x : Ext) (ci : Bool) (p : Pattern) : ∀ (ss : List Segment) (s : Segment) (i : Nat) (l : List (Segment × Nat)),
    Thru [chain p i s ss] l → Made x ci p (s :: ss) l := by
  have one : ∀ (ss : List Segment) (s : Segment), Made x ci p (s :: ss) [(s, p.priority)] := fun ss s =>
    ⟨⟨[s], by simp, .cons (.inl rfl) .nil⟩, rfl⟩
  intro ss
  induction ss with
  | nil =>
    intro s i l h
    cases h with
    | here hm => rw [List.mem_singleton, chain] at hm; cases hm; exact one _ _
    | down hm hl =>
      rw [List.mem_singleton, chain] at hm
      cases hm
      exact absurd hl not_thru_nil
  | cons s' ss ih =>
    intro s i l h
    cases h with
    | here hm => rw [List.mem_singleton, chain] at hm; cases hm; exact one _ _
    | down hm hl =>
      rw [List.mem_singleton, chain] at hm
      cases hm
      exact (ih s' (i + 1) _ hl).cons (.inl rfl)

variable {x : Ext} {ci : Bool} {srt : List Node → List Node} {p : Pattern}

theorem insert_thru (hp : ∀ l, (srt l).Perm l) :
    ∀ (ss : List Segment) (i : Nat) (s : Segment) (kids : List Node) (l : List (Segment × Nat)), Thru (insert x ci srt p i s ss kids).1 l →
    Thru kids l ∨ ((insert x ci srt p i s ss kids).2 = false ∧ Made x ci p (s :: ss) l) := by
  intro ss
  induction ss with
  | nil =>
    intro i s kids l h
    rcases insert_cases x ci srt p i s [] kids with ⟨_, he⟩ | ⟨a, b, mx, pr, seg, pat, ks, hk, hs, _, hc⟩
    · rw [he] at h ⊢
      rcases Thru.append.1 (h.mono fun n hn => (hp _).mem_iff.1 hn) with h | h
      · exact .inl h
      · exact .inr ⟨rfl, thru_chain x ci p _ _ _ _ h⟩
    · subst hk
      have key : ∀ mx' pat', Thru (a ++ .mk mx' pr seg pat' ks :: b) l → Thru (a ++ .mk mx pr seg pat ks :: b) l := by
        intro mx' pat' h
        rcases Thru.append.1 h with h | h
        · exact Thru.append.2 (.inl h)
        · refine Thru.append.2 (.inr ?_)
          rcases Thru.cons_split.1 h with h | h
          · cases h with
            | here hm => rw [List.mem_singleton] at hm; cases hm; exact .here List.mem_cons_self
            | down hm hl => rw [List.mem_singleton] at hm; cases hm; exact .down List.mem_cons_self hl
          · exact Thru.cons_split.2 (.inr h)
      rcases hc with ⟨_, q', rfl, he⟩ | ⟨_, rfl, he⟩ | ⟨_, _, h0, _⟩
      · rw [he] at h; exact .inl (key _ _ h)
      · rw [he] at h; exact .inl (key _ _ h)
      · cases h0
  | cons s1 ss1 ih =>
    intro i s kids l h
    rcases insert_cases x ci srt p i s (s1 :: ss1) kids with ⟨_, he⟩ | ⟨a, b, mx, pr, seg, pat, ks, hk, hs, _, hc⟩
    · rw [he] at h ⊢
      rcases Thru.append.1 (h.mono fun n hn => (hp _).mem_iff.1 hn) with h | h
      · exact .inl h
      · exact .inr ⟨rfl, thru_chain x ci p _ _ _ _ h⟩
    · subst hk
      rcases hc with ⟨h0, _⟩ | ⟨h0, _⟩ | ⟨s', ss', h0, he⟩
      · cases h0
      · cases h0
      · cases h0
        rw [he] at h ⊢
        rcases Thru.append.1 h with h | h
        · exact .inl (Thru.append.2 (.inl h))
        · rcases Thru.cons_split.1 h with h | h
          · cases h with
            | here hm => rw [List.mem_singleton] at hm; cases hm; exact .inl (Thru.append.2 (.inr (.here List.mem_cons_self)))
            | down hm hl =>
              rw [List.mem_singleton] at hm; cases hm
              rcases ih _ _ _ _ hl with h | ⟨h1, h2⟩
              · exact .inl (Thru.append.2 (.inr (.down List.mem_cons_self h)))
              · exact .inr ⟨h1, h2.cons (.inr hs)⟩
          · exact .inl (Thru.append.2 (.inr (Thru.cons_split.2 (.inr h))))

/-- A property of the children of every node. -/
inductive Every (P : List Node → Prop) : List Node → Prop
  | mk {ns} : P ns → (∀ n ∈ ns, Every P n.kids) → Every P ns

theorem Every.top {P : List Node → Prop} {ns : List Node} (h : Every P ns) : P ns := by cases h; assumption
theorem Every.kids {P : List Node → Prop} {ns : List Node} (h : Every P ns) {n : Node} (hn : n ∈ ns) : Every P n.kids := by
  cases h with
  | mk _ h => exact h n hn

theorem Every.imp {P Q : List Node → Prop} (hi : ∀ l, P l → Q l) {ns : List Node} (h : Every P ns) : Every Q ns := by
  induction h with
  | mk h1 _ ih => exact .mk (hi _ h1) ih

theorem every_chain {Q : List Node → Prop} (hnil : Q []) (hchain : ∀ i s ss, Q [chain p i s ss]) :
    ∀ (ss : List Segment) (s : Segment) (i : Nat), Every Q (chain p i s ss).kids := by
  intro ss
  induction ss with
  | nil => intro s i; exact .mk hnil (by intro n hn; cases hn)
  | cons s' ss ih =>
    intro s i
    refine .mk (hchain _ _ _) ?_
    intro n hn
    rw [show (chain p i s (s' :: ss)).kids = [chain p (i + 1) s' ss] from rfl, List.mem_singleton] at hn
    subst hn
    exact ih _ _

theorem insert_ne_nil (hp : ∀ l, (srt l).Perm l) (ss : List Segment) (i : Nat) (s : Segment) (kids : List Node) :
    (insert x ci srt p i s ss kids).1 ≠ [] := by
  rcases insert_cases x ci srt p i s ss kids with ⟨_, he⟩ | ⟨a, b, mx, pr, seg, pat, ks, hk, hs, _, hc⟩
  · rw [he]
    intro h
    have := (hp (kids ++ [chain p i s ss])).length_eq
    simp only at h
    rw [h] at this
    simp at this
  · rcases hc with ⟨_, _, _, he⟩ | ⟨_, _, he⟩ | ⟨_, _, _, he⟩ <;> rw [he] <;> simp

/-- Properties of sibling lists after a registration. -/
theorem insert_every {P Q : List Node → Prop} (hp : ∀ l, (srt l).Perm l) (hPQ : ∀ l, P l → Q l) (hnil : Q []) {A : Prop}
    (hchain : A → ∀ i s ss, Q [chain p i s ss])
    (hmod : ∀ a b n n', P (a ++ n :: b) → n'.seg = n.seg → n'.prio = n.prio → (n.pat.isSome → n'.pat.isSome) → (n.kids ≠ [] → n'.kids ≠ []) →
      Q (a ++ n' :: b)) (all : List Segment)
    (hnew : A → ∀ i s ss kids, s ∈ all → P kids → (∀ c ∈ kids, shares x ci s c.seg = false) → Q (srt (kids ++ [chain p i s ss]))) :
    ∀ (ss : List Segment) (i : Nat) (s : Segment) (kids : List Node), ((insert x ci srt p i s ss kids).2 = false → A) →
      (∀ t ∈ s :: ss, t ∈ all) → Every P kids → Every Q (insert x ci srt p i s ss kids).1 := by
  have replaced : ∀ a b n n', Every P (a ++ n :: b) → n'.seg = n.seg → n'.prio = n.prio → (n.pat.isSome → n'.pat.isSome) →
      (n.kids ≠ [] → n'.kids ≠ []) → Every Q n'.kids → Every Q (a ++ n' :: b) := by
    intro a b n n' h h1 h2 h3 h4 h5
    refine .mk (hmod a b n n' h.top h1 h2 h3 h4) ?_
    intro m hm
    rw [List.mem_append, List.mem_cons] at hm
    rcases hm with hm | rfl | hm
    · exact (h.kids (n := m) (by simp [hm])).imp hPQ
    · exact h5
    · exact (h.kids (n := m) (by simp [hm])).imp hPQ
  intro ss
  induction ss with
  | nil =>
    intro i s kids hA hall h
    rcases insert_cases x ci srt p i s [] kids with ⟨hno, he⟩ | ⟨a, b, mx, pr, seg, pat, ks, hk, hs, _, hc⟩
    · rw [he] at hA ⊢
      refine .mk (hnew (hA rfl) _ _ _ _ (hall s (by simp)) h.top hno) ?_
      intro n hn
      rcases List.mem_append.1 ((hp _).mem_iff.1 hn) with hn | hn
      · exact (h.kids hn).imp hPQ
      · rw [List.mem_singleton] at hn; subst hn; exact every_chain hnil (hchain (hA rfl)) _ _ _
    · subst hk
      have hks : Every P ks := h.kids (n := .mk mx pr seg pat ks) (by simp)
      rcases hc with ⟨_, q', rfl, he⟩ | ⟨_, rfl, he⟩ | ⟨_, _, h0, _⟩
      · rw [he]; exact replaced _ _ _ _ h rfl rfl (fun h => h) (fun h => h) (hks.imp hPQ)
      · rw [he]; exact replaced _ _ _ _ h rfl rfl (fun h => by simp [Node.pat] at h) (fun h => h) (hks.imp hPQ)
      · cases h0
  | cons s1 ss1 ih =>
    intro i s kids hA hall h
    rcases insert_cases x ci srt p i s (s1 :: ss1) kids with ⟨hno, he⟩ | ⟨a, b, mx, pr, seg, pat, ks, hk, hs, _, hc⟩
    · rw [he] at hA ⊢
      refine .mk (hnew (hA rfl) _ _ _ _ (hall s (by simp)) h.top hno) ?_
      intro n hn
      rcases List.mem_append.1 ((hp _).mem_iff.1 hn) with hn | hn
      · exact (h.kids hn).imp hPQ
      · rw [List.mem_singleton] at hn; subst hn; exact every_chain hnil (hchain (hA rfl)) _ _ _
    · subst hk
      have hks : Every P ks := h.kids (n := .mk mx pr seg pat ks) (by simp)
      rcases hc with ⟨h0, _⟩ | ⟨h0, _⟩ | ⟨s', ss', h0, he⟩
      · cases h0
      · cases h0
      · cases h0
        rw [he] at hA ⊢
        exact replaced _ _ (.mk mx pr seg pat ks) _ h rfl rfl (fun h => h) (fun _ => insert_ne_nil hp _ _ _ _)
          (ih (i + 1) s1 ks hA (fun t ht => hall t (List.mem_cons_of_mem _ ht)) hks)

/-! ### Along a registration history -/

/-- A property of all siblings that registrations keep. -/
theorem registered_every {ps : List Pattern} {m : Matcher} (hp : ∀ l, (srt l).Perm l) {P : List Node → Prop} (hnil : P [])
    (hchain : ∀ p i s ss, P [chain p i s ss])
    (hmod : ∀ a b n n', P (a ++ n :: b) → n'.seg = n.seg → n'.prio = n.prio → (n.pat.isSome → n'.pat.isSome) → (n.kids ≠ [] → n'.kids ≠ []) →
      P (a ++ n' :: b))
    (hnew : ∀ p i s ss kids, P kids → (∀ c ∈ kids, shares x ci s c.seg = false) → P (srt (kids ++ [chain p i s ss])))
    (h : Registered x ci srt ps m) : Every P m.kids := by
  have step : ∀ {m m' : Matcher} {p : Pattern} {r : Bool}, Every P m.kids → addPattern x ci srt m p = (m', r) → Every P m'.kids := by
    intro m m' p r h ha
    unfold addPattern at ha
    cases hs : p.segments with
    | nil =>
      rw [hs] at ha
      cases hr : m.root with
      | some q => rw [hr] at ha; simp only [Prod.mk.injEq] at ha; rw [← ha.1]; exact h
      | none => rw [hr] at ha; simp only [Prod.mk.injEq] at ha; rw [← ha.1]; exact h
    | cons s ss =>
      rw [hs] at ha
      simp only [Prod.mk.injEq] at ha
      rw [← ha.1]
      exact insert_every (p := p) (A := True) hp (fun _ h => h) hnil (fun _ => hchain p) hmod (s :: ss) (fun _ i s ss kids _ => hnew p i s ss kids) ss 0 s m.kids
        (fun _ => trivial) (fun _ h => h) h
  induction h with
  | new => exact .mk hnil (by intro n hn; cases hn)
  | added raw a _ _ ha ih => exact step ih ha
  | refused raw a _ _ ha ih => exact step ih ha

/-- No node is without a pattern and without children. -/
theorem registered_live {ps : List Pattern} {m : Matcher} (hp : ∀ l, (srt l).Perm l) (h : Registered x ci srt ps m) :
    Every (fun ns => ∀ n ∈ ns, n.pat.isSome ∨ n.kids ≠ []) m.kids := by
  have hc : ∀ p i s ss, (chain p i s ss).pat.isSome ∨ (chain p i s ss).kids ≠ [] := by
    intro p i s ss; cases ss with
    | nil => left; rfl
    | cons s' ss => right; simp [chain, Node.kids]
  refine registered_every hp (by intro n hn; cases hn) ?_ ?_ ?_ h
  · intro p i s ss n hn
    rw [List.mem_singleton] at hn; subst hn; exact hc p i s ss
  · intro a b n n' hP _ _ h3 h4 k hk
    rw [List.mem_append, List.mem_cons] at hk
    rcases hk with hk | rfl | hk
    · exact hP k (by simp [hk])
    · rcases hP n (by simp) with h | h
      · exact .inl (h3 h)
      · exact .inr (h4 h)
    · exact hP k (by simp [hk])
  · intro p i s ss kids hP _ n hn
    rcases List.mem_append.1 ((hp _).mem_iff.1 hn) with hn | hn
    · exact hP n hn
    · rw [List.mem_singleton] at hn; subst hn; exact hc p i s ss

/-- No node has more children than patterns were registered. -/
theorem registered_few {ps : List Pattern} {m : Matcher} (hp : ∀ l, (srt l).Perm l) (h : Registered x ci srt ps m) :
    Every (fun ns => ns.length ≤ ps.length) m.kids := by
  have step : ∀ {m m' : Matcher} {p : Pattern} {r : Bool} {k : Nat}, Every (fun ns => ns.length ≤ k) m.kids → addPattern x ci srt m p = (m', r) →
      Every (fun ns => ns.length ≤ if r then k else k + 1) m'.kids := by
    intro m m' p r k h ha
    unfold addPattern at ha
    cases hs : p.segments with
    | nil =>
      rw [hs] at ha
      have hm : m'.kids = m.kids := by
        cases hr : m.root with
        | some q => rw [hr] at ha; simp only [Prod.mk.injEq] at ha; rw [← ha.1]
        | none => rw [hr] at ha; simp only [Prod.mk.injEq] at ha; rw [← ha.1]
      rw [hm]
      exact h.imp fun l hl => by split <;> omega
    | cons s ss =>
      rw [hs] at ha
      simp only [Prod.mk.injEq] at ha
      rw [← ha.1]
      have hr := ha.2
      refine insert_every (p := p) (P := fun ns => ns.length ≤ k) (A := r = false) hp (fun l hl => ?_) ?_ ?_ ?_ (s :: ss) ?_ ss 0 s m.kids
        (fun h => by rw [← hr]; exact h) (fun _ h => h) ?_
      · split <;> omega
      · simp
      · intro hr i s ss; rw [hr]; simp
      · intro a b n n' hl _ _ _ _
        simp at hl ⊢; split <;> omega
      · intro hr i s ss kids _ hl _
        rw [(hp _).length_eq, hr]; simpa using hl
      · exact h
  induction h with
  | new => exact .mk (by simp) (by intro n hn; cases hn)
  | added raw a _ _ ha ih => simpa using step ih ha
  | refused raw a _ _ ha ih => simpa using step ih ha

end Gofre.Path
