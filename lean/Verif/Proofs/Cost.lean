import Verif.Model.Cost
import Verif.Proofs.SearchCost
import Verif.Proofs.Routing

/-! # Counting the iterations and the calls of one search -/

namespace Gofre.Path.Cost

open Gofre.Path Gofre.Spec

/-! ### The counted search is the search -/

section
variable {U : Type} {acc : Segment → U → Option MT}

theorem anyC_eq (u : U) (ns : List Node) : (anyC acc u ns).1 = anyAcc acc u ns := by
  induction ns with
  | nil => rfl
  | cons n ns ih =>
    simp only [anyC, anyAcc]
    cases acc n.seg u with
    | none => rfl
    | some k => cases k <;> first | rfl | exact ih

theorem anyC_le (u : U) (ns : List Node) : (anyC acc u ns).2 ≤ ns.length := by
  induction ns with
  | nil => simp [anyC]
  | cons n ns ih =>
    simp only [anyC, List.length_cons]
    cases acc n.seg u with
    | none => simp
    | some k => cases k <;> simp <;> omega

theorem greedyC_eq (kids : List Node) (us : List U) : ∀ (j : Nat) (labels : List MT),
    (greedyC acc kids j us labels).1 = greedyLoop acc kids j us labels := by
  induction us with
  | nil => intro j labels; rfl
  | cons u us ih =>
    intro j labels
    simp only [greedyC, greedyLoop, ← anyC_eq]
    cases (anyC acc u kids).1 with
    | none => rfl
    | some b => cases b <;> simp [ih]

theorem greedyC_le (kids : List Node) (us : List U) : ∀ (j : Nat) (labels : List MT),
    (greedyC acc kids j us labels).2 ≤ us.length * kids.length := by
  induction us with
  | nil => intro j labels; simp [greedyC]
  | cons u us ih =>
    intro j labels
    have h1 := anyC_le (acc := acc) u kids
    have h2 := ih (j + 1) (labels.set j .multiple)
    simp only [greedyC, List.length_cons, Nat.add_mul]
    cases (anyC acc u kids).1 with
    | none => simp; omega
    | some b => cases b <;> simp <;> omega

theorem scanC_eq (url : List U) (s : MSt) (u : U) (ns : List Node) : ∀ (ci bud : Nat),
    (scanC acc url s u ci ns bud).1 = scan acc url s u ci ns bud := by
  induction ns with
  | nil => intro ci bud; simp [scanC, scan]
  | cons n ns ih =>
    intro ci bud
    cases bud with
    | zero => rfl
    | succ bud =>
      simp only [scanC, scan]
      split
      · exact ih _ _
      · cases acc n.seg u with
        | none => rfl
        | some k =>
          cases k with
          | unknown => exact ih _ _
          | multiple =>
            simp only [← greedyC_eq]
            cases n.kids <;> cases n.pat <;> simp only <;> cases (greedyC acc _ s.idx (url.drop s.idx) s.labels).1 <;> rfl
          | literal | regex | capture | single | constraint =>
            simp only
            split
            · cases n.pat <;> rfl
            · rfl

theorem kids_le (n : Node) : n.kids.length + 1 ≤ count n := by
  have hl : ∀ ns : List Node, ns.length ≤ counts ns := by
    intro ns
    induction ns with
    | nil => simp [counts]
    | cons n ns ih => cases n; simp [counts, count]; omega
  cases n with
  | mk _ _ _ _ kids => have := hl kids; simp [Node.kids, count]; omega

theorem scanC_le (url : List U) (hurl : url.length ≤ 19) (s : MSt) (u : U) (ns : List Node) : ∀ (ci bud : Nat),
    (scanC acc url s u ci ns bud).2 ≤ 20 * counts ns := by
  induction ns with
  | nil => intro ci bud; simp [scanC]
  | cons n ns ih =>
    intro ci bud
    cases bud with
    | zero => simp [scanC]
    | succ bud =>
      have hk := kids_le n
      have hi := ih (ci + 1) bud
      simp only [scanC, counts]
      split
      · omega
      · cases acc n.seg u with
        | none => simp; omega
        | some k =>
          cases k with
          | unknown => simp only; omega
          | multiple =>
            have hg := greedyC_le (acc := acc) n.kids (url.drop s.idx) s.idx s.labels
            have hl : (url.drop s.idx).length ≤ 19 := by simp; omega
            have hm := Nat.mul_le_mul_right n.kids.length hl
            simp only
            split
            · simp; omega
            · split <;> simp only <;> omega
          | literal | regex | capture | single | constraint =>
            simp only
            split
            · cases n.pat <;> simp <;> omega
            · simp; omega

theorem mstepC_eq (rootKids : List Node) (url : List U) (s : MSt) : (mstepC acc rootKids url s).1 = mstep acc rootKids url s := by
  unfold mstepC mstep
  cases url[s.idx]? with
  | none => rfl
  | some u =>
    simp only
    cases s.nodeStack[s.depth]? with
    | none => rfl
    | some e => simp only [scanC_eq]; rfl

theorem mrunC_eq (rootKids : List Node) (url : List U) (f : Nat) : ∀ s, (mrunC acc rootKids url f s).1 = mrun acc rootKids url f s := by
  induction f with
  | zero => intro s; rfl
  | succ f ih =>
    intro s
    simp only [mrunC, mrun, ← mstepC_eq]
    cases (mstepC acc rootKids url s).1 with
    | done r => rfl
    | cont t => exact ih t

theorem matchMC_eq (m : Matcher) (url : List U) (f : Nat) : (matchMC acc m url f).1 = matchM acc m url f := by
  unfold matchMC matchM
  split
  · rfl
  · cases url <;> cases m.root <;> first | rfl | exact mrunC_eq _ _ _ _

end

theorem lookupC_eq (x : Ext) (ci : Bool) (m : Matcher) (path : Str) (buf : List USeg) (f : Nat) :
    (lookupC x ci m path buf f).1 = lookup x ci m path buf f := by
  unfold lookupC lookup
  cases parseURLPath path buf with
  | none => rfl
  | some segs => exact matchMC_eq _ _ _

/-! ### The nodes that the search is at -/

theorem counts_mem {n : Node} : ∀ {ns : List Node}, n ∈ ns → count n ≤ counts ns := by
  intro ns
  induction ns with
  | nil => intro h; cases h
  | cons m ns ih =>
    intro h
    simp only [counts]
    rcases List.mem_cons.1 h with rfl | h
    · omega
    · have := ih h; omega

/-- The path of the search is a path of the tree. -/
def InTree (rootKids : List Node) : List Node → Prop
  | [] => True
  | n :: ps => n ∈ kidsOf rootKids ps ∧ InTree rootKids ps

theorem inTree_counts {rootKids : List Node} : ∀ {path : List Node}, InTree rootKids path → counts (kidsOf rootKids path) ≤ counts rootKids := by
  intro path
  induction path with
  | nil => intro _; exact Nat.le_refl _
  | cons n ps ih =>
    intro h
    have h1 := counts_mem h.1
    have h2 := ih h.2
    cases n with
    | mk _ _ _ _ kids => simp only [count] at h1; simp only [kidsOf, Node.kids]; omega

theorem counts_append (a b : List Node) : counts (a ++ b) = counts a + counts b := by
  induction a with
  | nil => simp [counts]
  | cons n a ih => simp [counts, ih]; omega

theorem counts_drop (k : Nat) (ns : List Node) : counts (ns.drop k) ≤ counts ns := by
  have := counts_append (ns.take k) (ns.drop k)
  rw [List.take_append_drop] at this
  omega

section
variable {U : Type} {acc : Segment → U → Option MT}

theorem scan_path (url : List U) (s : MSt) (u : U) (ns : List Node) : ∀ (ci bud : Nat) (t : MSt),
    scan acc url s u ci ns bud = .matched t → ∃ n ∈ ns, t.path = n :: s.path := by
  induction ns with
  | nil => intro ci bud t h; simp [scan] at h
  | cons n ns ih =>
    intro ci bud t h
    cases bud with
    | zero => simp [scan] at h
    | succ bud =>
      have tail : scan acc url s u (ci + 1) ns bud = .matched t → ∃ n' ∈ n :: ns, t.path = n' :: s.path := fun h => by
        obtain ⟨n', h1, h2⟩ := ih _ _ _ h
        exact ⟨n', List.mem_cons_of_mem _ h1, h2⟩
      cases n with
      | mk mx pr seg pat kids =>
      rw [scan_cons] at h
      split at h
      · exact tail h
      · cases hk : acc seg u with
        | none => rw [hk] at h; simp [byKind] at h
        | some k =>
          rw [hk] at h
          by_cases h1 : k = .unknown
          · subst h1; exact tail h
          · by_cases h2 : k = .multiple
            · subst h2
              simp only [byKind] at h
              by_cases hl : kids = [] ∧ pat.isSome
              · obtain ⟨rfl, hs⟩ := hl
                obtain ⟨p, rfl⟩ := Option.isSome_iff_exists.1 hs
                simp [ifLeaf] at h
              · rw [ifLeaf_no hl] at h
                cases hg : greedyLoop acc kids s.idx (url.drop s.idx) s.labels <;> rw [hg] at h <;> simp [afterGreedy] at h
                subst h
                exact ⟨_, List.mem_cons_self, rfl⟩
            · rw [byKind_other h1 h2] at h
              split at h
              · cases pat <;> simp at h
              · simp only [SRes.matched.injEq] at h
                subst h
                exact ⟨_, List.mem_cons_self, rfl⟩

theorem mstep_inTree {rootKids : List Node} {url : List U} {s t : MSt} (h : InTree rootKids s.path)
    (hs : mstep acc rootKids url s = .cont t) : InTree rootKids t.path := by
  unfold mstep at hs
  cases hu : url[s.idx]? with
  | none => rw [hu] at hs; cases hs
  | some u =>
    rw [hu] at hs
    simp only at hs
    cases hn : s.nodeStack[s.depth]? with
    | none => rw [hn] at hs; cases hs
    | some e =>
      rw [hn] at hs
      simp only at hs
      generalize hsc : scan acc url _ u e.1 _ _ = sr at hs
      cases sr with
      | ret r => cases hs
      | matched m =>
        obtain ⟨n, h1, h2⟩ := scan_path _ _ _ _ _ _ _ hsc
        have hin : InTree rootKids m.path := by
          rw [h2]
          exact ⟨List.mem_of_mem_drop h1, h⟩
        have : t.path = m.path := by
          unfold atEnd at hs
          simp only [h2] at hs
          cases hp : n.pat with
          | none => rw [hp] at hs; simp only [Out.cont.injEq] at hs; rw [← hs]; exact h2.symm
          | some p =>
            rw [hp] at hs
            simp only at hs
            split at hs
            · cases hs
            · simp only [Out.cont.injEq] at hs; rw [← hs]; exact h2.symm
        rw [this]; exact hin
      | unmatched l =>
        simp only [atEnd] at hs
        cases hp : s.path with
        | nil => rw [hp] at hs; cases hs
        | cons n ps =>
          rw [hp] at hs h
          simp only [Out.cont.injEq] at hs
          rw [← hs]
          exact h.2

/-- A search of at most `k` iterations makes at most `k` times the calls of one. -/
theorem mrunC_le {rootKids : List Node} {url : List U} (hurl : url.length ≤ 19) : ∀ (k : Nat) (s : MSt) (r : MRes),
    mrun acc rootKids url k s = some r → InTree rootKids s.path → ∀ g, (mrunC acc rootKids url g s).2 ≤ k * (20 * counts rootKids) := by
  intro k
  induction k with
  | zero => intro s r h; simp [mrun] at h
  | succ k ih =>
    intro s r h hin g
    cases g with
    | zero => simp [mrunC]
    | succ g =>
      have h1 : (mstepC acc rootKids url s).2 ≤ 20 * counts rootKids := by
        unfold mstepC
        cases url[s.idx]? with
        | none => simp
        | some u =>
          simp only
          cases s.nodeStack[s.depth]? with
          | none => simp
          | some e =>
            simp only
            refine Nat.le_trans (scanC_le url hurl _ u _ _ _) ?_
            have h2 := counts_drop e.1 (kidsOf rootKids s.path)
            have h3 := inTree_counts hin
            omega
      simp only [mrunC, Nat.add_mul, Nat.one_mul]
      simp only [mrun, ← mstepC_eq] at h
      cases ho : (mstepC acc rootKids url s).1 with
      | done r' => simp only; omega
      | cont t =>
        rw [ho] at h
        have := ih t r h (mstep_inTree hin (by rw [← mstepC_eq]; exact ho)) g
        simp only
        omega

end

/-! ### Registration -/

theorem counts_perm {a b : List Node} (h : a.Perm b) : counts a = counts b := by
  induction h with
  | nil => rfl
  | cons _ _ ih => simp [counts, ih]
  | swap _ _ _ => simp [counts]; omega
  | trans _ _ ih1 ih2 => rw [ih1, ih2]

theorem count_chain (p : Pattern) (ss : List Segment) : ∀ i s, count (chain p i s ss) = ss.length + 1 := by
  induction ss with
  | nil => intro i s; simp [chain, count, counts]
  | cons s' ss ih => intro i s; simp [chain, count, counts, ih]; omega

variable {x : Ext} {ci : Bool} {srt : List Node → List Node}

theorem insert_counts (hp : ∀ l, (srt l).Perm l) (p : Pattern) (ss : List Segment) : ∀ (i : Nat) (s : Segment) (kids : List Node),
    counts (insert x ci srt p i s ss kids).1 ≤ counts kids + (if (insert x ci srt p i s ss kids).2 then 0 else ss.length + 1) := by
  induction ss with
  | nil =>
    intro i s kids
    unfold insert
    cases hf : findShare x ci s kids with
    | none => simp [counts_perm (hp _), counts_append, counts, count_chain]
    | some t =>
      obtain ⟨a, ⟨mx, pr, seg, pat, ks⟩, b⟩ := t
      obtain ⟨rfl, -, -⟩ := findShare_some hf
      cases pat <;> simp [counts_append, counts, count]
  | cons s' ss ih =>
    intro i s kids
    unfold insert
    cases hf : findShare x ci s kids with
    | none => simp [counts_perm (hp _), counts_append, counts, count_chain]
    | some t =>
      obtain ⟨a, ⟨mx, pr, seg, pat, ks⟩, b⟩ := t
      obtain ⟨rfl, -, -⟩ := findShare_some hf
      have := ih (i + 1) s' ks
      simp only [counts_append, counts, count, List.length_cons]
      split at this <;> split <;> simp_all <;> omega

theorem registered_counts (hp : ∀ l, (srt l).Perm l) {ps : List Pattern} {m : Matcher} (h : Registered x ci srt ps m) :
    counts m.kids ≤ (ps.map fun p => p.segments.length).sum := by
  have step : ∀ {m m' : Matcher} {p : Pattern} {r : Bool}, addPattern x ci srt m p = (m', r) →
      counts m'.kids ≤ counts m.kids + (if r then 0 else p.segments.length) := by
    intro m m' p r ha
    unfold addPattern at ha
    cases hs : p.segments with
    | nil =>
      rw [hs] at ha
      cases hr : m.root <;> rw [hr] at ha <;> simp only [Prod.mk.injEq] at ha <;> rw [← ha.1] <;> simp
    | cons s ss =>
      rw [hs] at ha
      simp only [Prod.mk.injEq] at ha
      rw [← ha.1, ← ha.2]
      exact insert_counts hp p ss 0 s m.kids
  induction h with
  | new => simp [counts]
  | added raw a _ _ ha ih => have := step ha; simp at this ⊢; omega
  | refused raw a _ _ ha ih => have := step ha; simp at this; omega

end Gofre.Path.Cost
