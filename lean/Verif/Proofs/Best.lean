import Verif.Proofs.NoPanic

/-! # The search is complete and returns the most specific pattern on well-behaved tries -/

namespace Gofre.Path
open Gofre.Spec

theorem more_specific_refl (ks : List MT) : MoreSpecific ks ks := by
  intro i k k' _ h h'
  rw [h] at h'
  cases h'
  exact Nat.le_refl _

theorem more_specific_cons {k k' : MT} {ks ks' : List MT} (hc : k.code ≤ k'.code) (h : k = k' → MoreSpecific ks ks') :
    MoreSpecific (k :: ks) (k' :: ks') := by
  intro i a b ht ha hb
  cases i with
  | zero => simp at ha hb; subst ha; subst hb; exact hc
  | succ i =>
    simp only [List.take_succ_cons, List.cons.injEq] at ht
    exact h ht.1 i a b ht.2 (by simpa using ha) (by simpa using hb)

theorem more_specific_drop {pre ks ks' : List MT} (h : MoreSpecific (pre ++ ks) (pre ++ ks')) : MoreSpecific ks ks' := by
  intro i a b ht ha hb
  refine h (pre.length + i) a b ?_ ?_ ?_
  · rw [List.take_length_add_append, List.take_length_add_append, ht]
  · rw [List.getElem?_append_right (by omega)]; simpa using ha
  · rw [List.getElem?_append_right (by omega)]; simpa using hb

variable {A : Prop} {U : Type} {acc : Segment → U → Option MT}

/-- The nodes of a way accept the request segments one by one, a final `**` all that remain, within
the length limits. -/
def Covers (acc : Segment → U → Option MT) : List (Segment × UInt8) → List U → Prop
  | [], us => us = []
  | _ :: _, [] => False
  | (s, mx) :: l, u :: us =>
    us.length + 1 ≤ mx.toNat ∧ acc s u = some s.kind ∧ s.kind ≠ .unknown ∧ (s.kind = .multiple → l = []) ∧
      (s.kind ≠ .multiple → Covers acc l us)

/-- A way down to a node without pattern. -/
inductive Mid : List Node → List Segment → Prop
  | here {ns mx pr seg kids} : Node.mk mx pr seg none kids ∈ ns → Mid ns [seg]
  | down {ns mx pr seg pat kids l} : Node.mk mx pr seg pat kids ∈ ns → Mid kids l → Mid ns (seg :: l)

theorem Mid.mono {ns ms : List Node} (h : ∀ n ∈ ns, n ∈ ms) {l : List Segment} (hs : Mid ns l) : Mid ms l := by
  cases hs with
  | here hm => exact .here (h _ hm)
  | down hm hl => exact .down (h _ hm) hl

/-- The kinds along a way. -/
abbrev kindsOf (l : List (Segment × UInt8)) : List MT := l.map (·.1.kind)

/-- What is required of siblings for the request segments `us0`. -/
structure Fair (A : Prop) (acc : Segment → U → Option MT) (us0 : List U) (ns : List Node) : Prop where
  ordered : A → ns.Pairwise fun a b => a.seg.kind.code ≤ b.seg.kind.code
  settled : A → ns.Pairwise fun a b => a.seg.kind = b.seg.kind → a.seg.kind ≠ .constraint → ∀ u ∈ us0,
    ¬ (acc a.seg u = some a.seg.kind ∧ acc b.seg u = some b.seg.kind)
  constraints : A → ns.Pairwise fun a b => a.seg.kind = .constraint → b.seg.kind = .constraint →
    ∀ l1 p l2 q, Leaf [a] l1 p → Leaf [b] l2 q → MoreSpecific (kindsOf l1) (kindsOf l2)
  star : ∀ n ∈ ns, n.seg.kind = .multiple → n.kids = [] ∧ n.pat.isSome
  few : ns.length < 65536

theorem Fair.tail {us0 : List U} {n : Node} {ns : List Node} (h : Fair A acc us0 (n :: ns)) : Fair A acc us0 ns :=
  ⟨fun a => (List.pairwise_cons.1 (h.ordered a)).2, fun a => (List.pairwise_cons.1 (h.settled a)).2,
    fun a => (List.pairwise_cons.1 (h.constraints a)).2,
    fun m hm => h.star m (by simp [hm]), by have := h.few; simp at this; omega⟩

theorem Every.tail {us0 : List U} {n : Node} {ns : List Node} (h : Every (Fair A acc us0) (n :: ns)) : Every (Fair A acc us0) ns :=
  .mk h.top.tail fun m hm => h.kids (by simp [hm])

/-- The head of a way. -/
theorem leaf_head {ns : List Node} {l : List (Segment × UInt8)} {q : Pattern} (h : Leaf ns l q) :
    ∃ n ∈ ns, ∃ t, l = (n.seg, n.max) :: t ∧ Leaf [n] l q := by
  cases h with
  | here hm => exact ⟨_, hm, [], rfl, .here List.mem_cons_self⟩
  | down hm hl => exact ⟨_, hm, _, rfl, .down List.mem_cons_self hl⟩

/-- The search found the most specific of the patterns covering the request, or there is none. -/
def Best (A : Prop) (acc : Segment → U → Option MT) (r : Res) (ns : List Node) (us : List U) : Prop :=
  (∃ p ls l, r = .found p ls ∧ Leaf ns l p ∧ Covers acc l us ∧
    (A → ∀ l' q, Leaf ns l' q → Covers acc l' us → MoreSpecific (kindsOf l) (kindsOf l'))) ∨
  (r = .stop ∧ ∀ l q, Leaf ns l q → ¬ Covers acc l us)

theorem tryC_best (hkind : ∀ s u k, acc s u = some k → k = .unknown ∨ k = s.kind) (us0 : List U) :
    ∀ (n : Nat) (ns : List Node), sizeOf ns ≤ n → ∀ (d b : Nat) (us : List U), Every (Fair A acc us0) ns → (∀ u ∈ us, u ∈ us0) →
      (∀ s, Has ns s → ∀ u ∈ us, acc s u ≠ none) →
      (∀ l, Mid ns l → ¬ All2 (fun s u => acc s u = some s.kind ∧ s.kind ≠ .unknown ∧ s.kind ≠ .multiple) l us) →
      d + us.length ≤ 19 → us ≠ [] → ns.length ≤ b →
      Best A acc (tryC acc d ns b us) ns us := by
  intro n
  induction n with
  | zero => intro ns h; cases ns <;> simp at h
  | succ n ih =>
    intro ns hn d b us hgood hsub hacc hmid hd hne hb
    match ns, b, us with
    | [], _, _ => exact .inr ⟨by simp [tryC], fun l q h => by cases h <;> contradiction⟩
    | _ :: _, 0, _ => simp at hb
    | _ :: _, _ + 1, [] => exact absurd rfl hne
    | .mk mx pr seg pat kids :: rest, b + 1, u :: us =>
      -- the rest of the siblings
      have hrest := ih rest (by simp at hn; omega) d b (u :: us) hgood.tail hsub
        (fun s hs => hacc s (hs.mono (by intro n hn; simp [hn]))) (fun l hl => hmid l (hl.mono (by intro n hn; simp [hn]))) hd hne
        (by simpa using hb)
      -- when the node fails
      have hfail : tryN acc d (.mk mx pr seg pat kids) (u :: us) = .next →
          (∀ l q, Leaf [.mk mx pr seg pat kids] l q → ¬ Covers acc l (u :: us)) →
          Best A acc (tryC acc d (.mk mx pr seg pat kids :: rest) (b + 1) (u :: us)) (.mk mx pr seg pat kids :: rest) (u :: us) := by
        intro h1 h2
        rw [tryC, h1]
        show Best A acc (tryC acc d rest b (u :: us)) _ _
        rcases hrest with ⟨p, ls, l, h3, h4, h5, h6⟩ | ⟨h3, h4⟩
        · refine .inl ⟨p, ls, l, h3, h4.mono (by intro n hn; simp [hn]), h5, ?_⟩
          intro hA l' q hl' hc
          rcases Leaf.cons_split.1 hl' with h | h
          · exact absurd hc (h2 l' q h)
          · exact h6 hA l' q h hc
        · refine .inr ⟨h3, ?_⟩
          intro l q hl hc
          rcases Leaf.cons_split.1 hl with h | h
          · exact h2 l q h hc
          · exact h4 l q h hc
      -- when the node succeeds
      have hsucc : ∀ p ls l, tryN acc d (.mk mx pr seg pat kids) (u :: us) = .found p ls → Leaf [.mk mx pr seg pat kids] l p →
          Covers acc l (u :: us) → (A → ∀ l' q, Leaf [.mk mx pr seg pat kids] l' q → Covers acc l' (u :: us) → MoreSpecific (kindsOf l) (kindsOf l')) →
          Best A acc (tryC acc d (.mk mx pr seg pat kids :: rest) (b + 1) (u :: us)) (.mk mx pr seg pat kids :: rest) (u :: us) := by
        intro p ls l h1 h2 h3 h4
        rw [tryC, h1]
        refine .inl ⟨p, ls, l, rfl, Leaf.cons_split.2 (.inl h2), h3, ?_⟩
        intro hA l' q hl' hc
        rcases Leaf.cons_split.1 hl' with h | h
        · exact h4 hA l' q h hc
        · obtain ⟨a, ha, t, rfl, _⟩ := leaf_head h2
          rw [List.mem_singleton] at ha
          subst ha
          obtain ⟨c, hc1, t', rfl, hc2⟩ := leaf_head h
          have hg := hgood.top
          have o1 := (List.pairwise_cons.1 (hg.ordered hA)).1 c hc1
          have o2 := (List.pairwise_cons.1 (hg.settled hA)).1 c hc1
          have o3 := (List.pairwise_cons.1 (hg.constraints hA)).1 c hc1
          simp only [Covers] at h3 hc
          by_cases hk : seg.kind = c.seg.kind
          · by_cases hcon : seg.kind = .constraint
            · exact o3 hcon (hk ▸ hcon) _ _ _ _ h2 hc2
            · exact absurd ⟨h3.2.1, hc.2.1⟩ (o2 hk hcon u (hsub u (by simp)))
          · simp only [kindsOf, List.map_cons]
            exact more_specific_cons o1 fun e => absurd e hk
      rw [tryN_cons] at hfail hsucc
      have hself : ∀ {l q}, Leaf [.mk mx pr seg pat kids] l q →
          (pat = some q ∧ l = [(seg, mx)]) ∨ ∃ t, l = (seg, mx) :: t ∧ Leaf kids t q := by
        intro l q h
        cases h with
        | here hm => rw [List.mem_singleton] at hm; cases hm; exact .inl ⟨rfl, rfl⟩
        | down hm hl => rw [List.mem_singleton] at hm; cases hm; exact .inr ⟨_, rfl, hl⟩
      have hcov : ∀ {l q}, Leaf [.mk mx pr seg pat kids] l q → Covers acc l (u :: us) →
          us.length + 1 ≤ mx.toNat ∧ acc seg u = some seg.kind ∧ seg.kind ≠ .unknown ∧ (seg.kind ≠ .multiple → Covers acc l.tail us) := by
        intro l q h hc
        obtain ⟨a, ha, t, rfl, _⟩ := leaf_head h
        rw [List.mem_singleton] at ha
        subst ha
        simp only [Covers] at hc
        exact ⟨hc.1, hc.2.1, hc.2.2.1, hc.2.2.2.2⟩
      by_cases hmx : mx.toNat < us.length + 1
      · rw [if_pos hmx] at hfail
        exact hfail rfl fun l q hl hc => by have := (hcov hl hc).1; omega
      · rw [if_neg hmx] at hfail hsucc
        cases ha : acc seg u with
        | none => exact absurd ha (hacc seg (.here List.mem_cons_self) u (by simp))
        | some k =>
          rw [ha] at hfail hsucc
          by_cases hu : k = .unknown
          · subst hu
            refine hfail rfl fun l q hl hc => ?_
            have h := (hcov hl hc).2
            rw [ha] at h
            exact h.2.1 (Option.some.inj h.1).symm
          · have hks : k = seg.kind := (hkind _ _ _ ha).resolve_left hu
            by_cases hm : k = .multiple
            · obtain ⟨hk0, hp0⟩ := hgood.top.star _ List.mem_cons_self (by simp only [Node.seg]; rw [← hks]; exact hm)
              simp only [Node.kids, Node.pat] at hk0 hp0
              subst hk0
              obtain ⟨p, rfl⟩ := Option.isSome_iff_exists.1 hp0
              subst hm
              refine hsucc p _ [(seg, mx)] rfl (.here List.mem_cons_self) ?_ ?_
              · simp only [Covers]
                exact ⟨by omega, by rw [ha, hks], by rw [← hks]; exact hu, fun _ => by trivial, fun h => absurd hks.symm h⟩
              · intro _ l' q hl' _
                rcases hself hl' with ⟨_, rfl⟩ | ⟨t, _, ht⟩
                · exact more_specific_refl _
                · cases ht <;> contradiction
            · rw [byKind_other hu hm] at hfail hsucc
              have hkm : seg.kind ≠ .multiple := by rw [← hks]; exact hm
              have hku : seg.kind ≠ .unknown := by rw [← hks]; exact hu
              cases us with
              | nil =>
                cases pat with
                | none =>
                  exact absurd (.cons ⟨by rw [ha, hks], hku, hkm⟩ .nil) (hmid [seg] (.here List.mem_cons_self))
                | some p =>
                  refine hsucc p _ [(seg, mx)] rfl (.here List.mem_cons_self) ?_ ?_
                  · simp only [Covers]
                    exact ⟨by omega, by rw [ha, hks], hku, fun h => absurd h hkm, fun _ => by trivial⟩
                  · intro hA l' q hl' hc'
                    have := (hcov hl' hc').2.2.2 hkm
                    obtain ⟨a, ha', t, rfl, _⟩ := leaf_head hl'
                    rw [List.mem_singleton] at ha'
                    subst ha'
                    cases t with
                    | nil => exact more_specific_refl _
                    | cons _ _ => exact absurd this (by simp [Covers])
              | cons v us =>
                have hlen : kids.length < 65536 := (hgood.kids (n := .mk mx pr seg pat kids) List.mem_cons_self).top.few
                have hbelow : below acc d kids (v :: us) = tryC acc (d + 1) kids kids.length (v :: us) := by
                  rw [below, if_pos (by simp at hd; omega), Nat.mod_eq_of_lt hlen]
                rw [hbelow] at hfail hsucc
                have hI := ih kids (by have := sizeOf_kids mx pr seg pat kids rest; omega) (d + 1) kids.length (v :: us)
                  (hgood.kids (n := .mk mx pr seg pat kids) List.mem_cons_self) (fun w hw => hsub w (by simp at hw ⊢; exact .inr hw))
                  (fun s hs w hw => hacc s (.down List.mem_cons_self hs) w (by simp at hw ⊢; exact .inr hw))
                  (fun l hl hall => hmid (seg :: l) (.down List.mem_cons_self hl) (.cons ⟨by rw [ha, hks], hku, hkm⟩ hall))
                  (by simp at hd ⊢; omega) (by simp) (Nat.le_refl _)
                rcases hI with ⟨p, ls, l, h1, h2, h3, h4⟩ | ⟨h1, h2⟩
                · refine hsucc p (k :: ls) ((seg, mx) :: l) (by rw [h1]; rfl) (.down List.mem_cons_self h2) ?_ ?_
                  · simp only [Covers]
                    exact ⟨by simp at hmx ⊢; omega, by rw [ha, hks], hku, fun h => absurd h hkm, fun _ => h3⟩
                  · intro hA l' q hl' hc'
                    have hc2 := (hcov hl' hc').2.2.2 hkm
                    rcases hself hl' with ⟨_, rfl⟩ | ⟨t, rfl, ht⟩
                    · simp [Covers] at hc2
                    · simp only [kindsOf, List.map_cons]
                      exact more_specific_cons (Nat.le_refl _) fun _ => h4 hA t q ht hc2
                · refine hfail (by rw [h1]; rfl) ?_
                  intro l q hl hc
                  have hc2 := (hcov hl hc).2.2.2 hkm
                  rcases hself hl with ⟨_, rfl⟩ | ⟨t, rfl, ht⟩
                  · simp [Covers] at hc2
                  · exact h2 t q ht hc2

end Gofre.Path
