import Verif.Proofs.Complete
import Verif.Proofs.StarsRoute
import Verif.Spec.Hidden

/-! # What the search returns, exactly

At the last segment of a request the first child accepting it decides, also when no pattern ends
there.  `tryC_exact` says what this means for the whole search. -/

namespace Gofre.Path
open Gofre.Spec

variable {U : Type} {acc : Segment → U → Option MT}

/-- A way down to a node without pattern, with the length limits of the nodes. -/
inductive Bare : List Node → List (Segment × UInt8) → Prop
  | here {ns mx pr seg kids} : Node.mk mx pr seg none kids ∈ ns → Bare ns [(seg, mx)]
  | down {ns mx pr seg pat kids l} : Node.mk mx pr seg pat kids ∈ ns → Bare kids l → Bare ns ((seg, mx) :: l)

theorem Bare.mono {ns ms : List Node} (h : ∀ n ∈ ns, n ∈ ms) {l : List (Segment × UInt8)} (hs : Bare ns l) : Bare ms l := by
  cases hs with
  | here hm => exact .here (h _ hm)
  | down hm hl => exact .down (h _ hm) hl

theorem Bare.cons_split {n : Node} {ns : List Node} {l : List (Segment × UInt8)} (h : Bare (n :: ns) l) : Bare [n] l ∨ Bare ns l := by
  cases h with
  | here hm =>
    rcases List.mem_cons.1 hm with rfl | hm
    · exact .inl (.here List.mem_cons_self)
    · exact .inr (.here hm)
  | down hm hl =>
    rcases List.mem_cons.1 hm with rfl | hm
    · exact .inl (.down List.mem_cons_self hl)
    · exact .inr (.down hm hl)

theorem bare_head {ns : List Node} {l : List (Segment × UInt8)} (h : Bare ns l) : ∃ n ∈ ns, ∃ t, l = (n.seg, n.max) :: t ∧ Bare [n] l := by
  cases h with
  | here hm => exact ⟨_, hm, [], rfl, .here List.mem_cons_self⟩
  | down hm hl => exact ⟨_, hm, _, rfl, .down List.mem_cons_self hl⟩

/-- The way accepts the request segments one by one. -/
def Full (acc : Segment → U → Option MT) (l : List (Segment × UInt8)) (us : List U) : Prop :=
  Covers acc l us ∧ ∀ c ∈ l, c.1.kind ≠ .multiple

theorem full_length : ∀ {l : List (Segment × UInt8)} {us : List U}, Full acc l us → l.length = us.length := by
  intro l
  induction l with
  | nil => intro us h; have := h.1; simp only [Covers] at this; simp [this]
  | cons c l ih =>
    intro us h
    obtain ⟨s, mx⟩ := c
    cases us with
    | nil => exact absurd h.1 (by simp [Covers])
    | cons u us =>
      have := h.1
      simp only [Covers] at this
      have hs := h.2 (s, mx) (by simp)
      simp [ih ⟨this.2.2.2.2 hs, fun c hc => h.2 c (by simp [hc])⟩]

/-- The way `l` is hidden: a node without pattern accepts the whole request, and its way differs
from `l` only in the last node, where it is the more specific one. -/
def Hides (acc : Segment → U → Option MT) (ns : List Node) (us : List U) (l : List (Segment × UInt8)) : Prop :=
  ∃ l', Bare ns l' ∧ Full acc l' us ∧ ∃ ks a b, kindsOf l' = ks ++ [a] ∧ kindsOf l = ks ++ [b] ∧ a.code < b.code

theorem Hides.mono {ns ms : List Node} (h : ∀ n ∈ ns, n ∈ ms) {us : List U} {l : List (Segment × UInt8)} (hs : Hides acc ns us l) : Hides acc ms us l := by
  obtain ⟨l', h1, h2⟩ := hs
  exact ⟨l', h1.mono h, h2⟩

/-- Siblings among which at most one of each kind accepts. -/
structure Sharp (acc : Segment → U → Option MT) (us0 : List U) (ns : List Node) : Prop where
  ordered : ns.Pairwise fun a b => a.seg.kind.code ≤ b.seg.kind.code
  settled : ns.Pairwise fun a b => a.seg.kind = b.seg.kind → ∀ u ∈ us0, ¬ (acc a.seg u = some a.seg.kind ∧ acc b.seg u = some b.seg.kind)
  star : ∀ n ∈ ns, n.seg.kind = .multiple → n.kids = [] ∧ n.pat.isSome
  few : ns.length < 65536

theorem Sharp.tail {us0 : List U} {n : Node} {ns : List Node} (h : Sharp acc us0 (n :: ns)) : Sharp acc us0 ns :=
  ⟨(List.pairwise_cons.1 h.ordered).2, (List.pairwise_cons.1 h.settled).2, fun m hm => h.star m (by simp [hm]), by have := h.few; simp at this; omega⟩

theorem sharp_tail {us0 : List U} {n : Node} {ns : List Node} (h : Every (Sharp acc us0) (n :: ns)) : Every (Sharp acc us0) ns :=
  .mk h.top.tail fun m hm => h.kids (by simp [hm])

/-- The search found the most specific of the patterns that cover the request and are not hidden,
or there is none. -/
def Exactly (acc : Segment → U → Option MT) (r : Res) (ns : List Node) (us : List U) : Prop :=
  (∃ p ls l, r = .found p ls ∧ Leaf ns l p ∧ Covers acc l us ∧ ¬ Hides acc ns us l ∧
    ∀ l' q, Leaf ns l' q → Covers acc l' us → ¬ Hides acc ns us l' → MoreSpecific (kindsOf l) (kindsOf l')) ∨
  (r = .stop ∧ ∀ l q, Leaf ns l q → Covers acc l us → Hides acc ns us l)

theorem code_inj {a b : MT} (h : a.code = b.code) : a = b := by
  revert h; cases a <;> cases b <;> decide

theorem tryC_exact (hkind : ∀ s u k, acc s u = some k → k = .unknown ∨ k = s.kind) (us0 : List U) :
    ∀ (n : Nat) (ns : List Node), sizeOf ns ≤ n → ∀ (d b : Nat) (us : List U), Every (Sharp acc us0) ns → (∀ u ∈ us, u ∈ us0) →
      (∀ s, Has ns s → ∀ u ∈ us, acc s u ≠ none) →
      d + us.length ≤ 19 → us ≠ [] → ns.length ≤ b →
      Exactly acc (tryC acc d ns b us) ns us := by
  intro n
  induction n with
  | zero => intro ns h; cases ns <;> simp at h
  | succ n ih =>
    intro ns hn d b us hgood hsub hacc hd hne hb
    match ns, b, us with
    | [], _, _ => exact .inr ⟨by simp [tryC], fun l q h => by cases h <;> contradiction⟩
    | _ :: _, 0, _ => simp at hb
    | _ :: _, _ + 1, [] => exact absurd rfl hne
    | .mk mx pr seg pat kids :: rest, b + 1, u :: us =>
      have hrest := ih rest (by simp at hn; omega) d b (u :: us) (sharp_tail hgood) hsub
        (fun s hs => hacc s (hs.mono (by intro n hn; simp [hn]))) hd hne (by simpa using hb)
      have hin : ∀ m ∈ rest, m ∈ Node.mk mx pr seg pat kids :: rest := fun m hm => by simp [hm]
      have o1 := (List.pairwise_cons.1 hgood.top.ordered).1
      have o2 := (List.pairwise_cons.1 hgood.top.settled).1
      simp only [Node.seg] at o1 o2
      have hself : ∀ {l q}, Leaf [.mk mx pr seg pat kids] l q →
          (pat = some q ∧ l = [(seg, mx)]) ∨ ∃ t, l = (seg, mx) :: t ∧ Leaf kids t q := by
        intro l q h
        cases h with
        | here hm => rw [List.mem_singleton] at hm; cases hm; exact .inl ⟨rfl, rfl⟩
        | down hm hl => rw [List.mem_singleton] at hm; cases hm; exact .inr ⟨_, rfl, hl⟩
      have hbare : ∀ {l}, Bare [.mk mx pr seg pat kids] l → (pat = none ∧ l = [(seg, mx)]) ∨ ∃ t, l = (seg, mx) :: t ∧ Bare kids t := by
        intro l h
        cases h with
        | here hm => rw [List.mem_singleton] at hm; cases hm; exact .inl ⟨rfl, rfl⟩
        | down hm hl => rw [List.mem_singleton] at hm; cases hm; exact .inr ⟨_, rfl, hl⟩
      -- the first node of a covering way accepts
      have hfst : ∀ {s : Segment} {mx' : UInt8} {t : List (Segment × UInt8)}, Covers acc ((s, mx') :: t) (u :: us) →
          us.length + 1 ≤ mx'.toNat ∧ acc s u = some s.kind ∧ s.kind ≠ .unknown ∧ (s.kind = .multiple → t = []) ∧ (s.kind ≠ .multiple → Covers acc t us) := by
        intro s mx' t h; simpa only [Covers] using h
      -- a hiding way of the whole list which starts at the first node
      have hheadkind : ∀ {l' l : List (Segment × UInt8)} {ks : List MT} {a b : MT}, Full acc l' (u :: us) → kindsOf l' = ks ++ [a] → kindsOf l = ks ++ [b] →
          us ≠ [] → ∃ k ks', ks = k :: ks' := by
        intro l' l ks a b hf h1 _ hne
        cases ks with
        | cons k ks' => exact ⟨k, ks', rfl⟩
        | nil =>
          have h2 := full_length hf
          have h3 : l'.length = 1 := by have := congrArg List.length h1; simpa [kindsOf] using this
          simp only [List.length_cons] at h2
          have := List.length_pos_iff.2 hne
          omega
      -- when the node fails
      have hfail : tryN acc d (.mk mx pr seg pat kids) (u :: us) = .next →
          (∀ l q, Leaf [.mk mx pr seg pat kids] l q → Covers acc l (u :: us) → Hides acc [.mk mx pr seg pat kids] (u :: us) l) →
          (∀ l, Bare [.mk mx pr seg pat kids] l → Full acc l (u :: us) → us ≠ []) →
          Exactly acc (tryC acc d (.mk mx pr seg pat kids :: rest) (b + 1) (u :: us)) (.mk mx pr seg pat kids :: rest) (u :: us) := by
        intro h1 h2 hb
        rw [tryC, h1]
        show Exactly acc (tryC acc d rest b (u :: us)) _ _
        have hfirst : ∀ {m : Node}, m ∈ [Node.mk mx pr seg pat kids] → m ∈ Node.mk mx pr seg pat kids :: rest := by
          intro m hm; rw [List.mem_singleton] at hm; subst hm; simp
        rcases hrest with ⟨p, ls, l, h3, h4, h5, h6, h7⟩ | ⟨h3, h4⟩
        · refine .inl ⟨p, ls, l, h3, h4.mono hin, h5, ?_, ?_⟩
          · rintro ⟨l', g1, g2, ks, a, b, g3, g4, g5⟩
            rcases g1.cons_split with g1 | g1
            · obtain ⟨k, ks', rfl⟩ := hheadkind g2 g3 g4 (hb l' g1 g2)
              obtain ⟨c, hc, t, rfl, _⟩ := bare_head g1
              rw [List.mem_singleton] at hc
              subst hc
              obtain ⟨c', hc', t', rfl, _⟩ := leaf_head h4
              simp only [kindsOf, List.map_cons, List.cons_append, List.cons.injEq, Node.seg] at g3 g4
              exact o2 c' hc' (g3.1.trans g4.1.symm) u (hsub u (by simp)) ⟨(hfst g2.1).2.1, (hfst h5).2.1⟩
            · exact h6 ⟨l', g1, g2, ks, a, b, g3, g4, g5⟩
          · intro l' q hl' hc hnh
            rcases Leaf.cons_split.1 hl' with h | h
            · exact absurd ((h2 l' q h hc).mono fun m hm => hfirst hm) hnh
            · exact h7 l' q h hc fun hh => hnh (hh.mono hin)
        · refine .inr ⟨h3, ?_⟩
          intro l q hl hc
          rcases Leaf.cons_split.1 hl with h | h
          · exact (h2 l q h hc).mono fun m hm => hfirst hm
          · exact (h4 l q h hc).mono hin
      -- when the node succeeds
      have hsucc : ∀ p ls l, tryN acc d (.mk mx pr seg pat kids) (u :: us) = .found p ls → Leaf [.mk mx pr seg pat kids] l p →
          Covers acc l (u :: us) → ¬ Hides acc [.mk mx pr seg pat kids] (u :: us) l →
          (∀ l' q, Leaf [.mk mx pr seg pat kids] l' q → Covers acc l' (u :: us) → ¬ Hides acc [.mk mx pr seg pat kids] (u :: us) l' →
            MoreSpecific (kindsOf l) (kindsOf l')) →
          Exactly acc (tryC acc d (.mk mx pr seg pat kids :: rest) (b + 1) (u :: us)) (.mk mx pr seg pat kids :: rest) (u :: us) := by
        intro p ls l h1 h2 h3 h4 h5
        rw [tryC, h1]
        refine .inl ⟨p, ls, l, rfl, Leaf.cons_split.2 (.inl h2), h3, ?_, ?_⟩
        · rintro ⟨l', g1, g2, ks, a, b, g3, g4, g5⟩
          rcases g1.cons_split with g1 | g1
          · exact h4 ⟨l', g1, g2, ks, a, b, g3, g4, g5⟩
          · obtain ⟨c, hc, t, rfl, _⟩ := bare_head g1
            obtain ⟨c', hc', t', rfl, _⟩ := leaf_head h2
            rw [List.mem_singleton] at hc'
            subst hc'
            have hlt := o1 c hc
            simp only [kindsOf, List.map_cons, Node.seg] at g3 g4
            cases ks with
            | nil =>
              simp only [List.nil_append, List.cons.injEq] at g3 g4
              rw [g3.1, g4.1] at hlt
              omega
            | cons k ks =>
              simp only [List.cons_append, List.cons.injEq] at g3 g4
              exact o2 c hc (g4.1.trans g3.1.symm) u (hsub u (by simp)) ⟨(hfst h3).2.1, (hfst g2.1).2.1⟩
        · intro l' q hl' hc hnh
          rcases Leaf.cons_split.1 hl' with h | h
          · exact h5 l' q h hc fun hh => hnh (hh.mono fun m hm => by rw [List.mem_singleton] at hm; subst hm; simp)
          · obtain ⟨a, ha, t, rfl, _⟩ := leaf_head h2
            rw [List.mem_singleton] at ha
            subst ha
            obtain ⟨c, hc1, t', rfl, hc2⟩ := leaf_head h
            simp only [kindsOf, List.map_cons]
            refine more_specific_cons (o1 c hc1) fun e => ?_
            exact absurd ⟨(hfst h3).2.1, (hfst hc).2.1⟩ (o2 c hc1 e u (hsub u (by simp)))
      rw [tryN_cons] at hfail hsucc
      have hcov : ∀ {l q}, Leaf [.mk mx pr seg pat kids] l q → Covers acc l (u :: us) →
          us.length + 1 ≤ mx.toNat ∧ acc seg u = some seg.kind ∧ seg.kind ≠ .unknown ∧ (seg.kind ≠ .multiple → Covers acc l.tail us) := by
        intro l q h hc
        obtain ⟨a, ha, t, rfl, _⟩ := leaf_head h
        rw [List.mem_singleton] at ha
        subst ha
        have := hfst hc
        exact ⟨this.1, this.2.1, this.2.2.1, this.2.2.2.2⟩
      have hcovb : ∀ {l}, Bare [.mk mx pr seg pat kids] l → Full acc l (u :: us) → us.length + 1 ≤ mx.toNat ∧ acc seg u = some seg.kind ∧ seg.kind ≠ .unknown := by
        intro l h hc
        obtain ⟨a, ha, t, rfl, _⟩ := bare_head h
        rw [List.mem_singleton] at ha
        subst ha
        have := hfst hc.1
        exact ⟨this.1, this.2.1, this.2.2.1⟩
      by_cases hmx : mx.toNat < us.length + 1
      · rw [if_pos hmx] at hfail
        exact hfail rfl (fun l q hl hc => by have := (hcov hl hc).1; omega) (fun l hl hc => by have := (hcovb hl hc).1; omega)
      · rw [if_neg hmx] at hfail hsucc
        cases ha : acc seg u with
        | none => exact absurd ha (hacc seg (.here List.mem_cons_self) u (by simp))
        | some k =>
          rw [ha] at hfail hsucc
          by_cases hu : k = .unknown
          · subst hu
            refine hfail rfl (fun l q hl hc => ?_) (fun l hl hc => ?_)
            · have h := (hcov hl hc).2
              rw [ha] at h
              exact absurd (Option.some.inj h.1).symm h.2.1
            · have h := (hcovb hl hc).2
              rw [ha] at h
              exact absurd (Option.some.inj h.1).symm h.2
          · have hks : k = seg.kind := (hkind _ _ _ ha).resolve_left hu
            by_cases hm : k = .multiple
            · obtain ⟨hk0, hp0⟩ := hgood.top.star _ List.mem_cons_self (by simp only [Node.seg]; rw [← hks]; exact hm)
              simp only [Node.kids, Node.pat] at hk0 hp0
              subst hk0
              obtain ⟨p, rfl⟩ := Option.isSome_iff_exists.1 hp0
              subst hm
              refine hsucc p _ [(seg, mx)] rfl (.here List.mem_cons_self) ?_ ?_ ?_
              · simp only [Covers]
                exact ⟨by omega, by rw [ha, hks], by rw [← hks]; exact hu, fun _ => by trivial, fun h => absurd hks.symm h⟩
              · rintro ⟨l', g1, _⟩
                rcases hbare g1 with ⟨g, _⟩ | ⟨t, _, g⟩
                · cases g
                · cases g <;> contradiction
              · intro l' q hl' _ _
                rcases hself hl' with ⟨_, rfl⟩ | ⟨t, _, ht⟩
                · exact more_specific_refl _
                · cases ht <;> contradiction
            · rw [byKind_other hu hm] at hfail hsucc
              have hkm : seg.kind ≠ .multiple := by rw [← hks]; exact hm
              have hku : seg.kind ≠ .unknown := by rw [← hks]; exact hu
              cases us with
              | nil =>
                cases pat with
                | none =>
                  have hst : tryC acc d (.mk mx pr seg none kids :: rest) (b + 1) [u] = .stop := by
                    rw [tryC, tryN_cons, if_neg hmx, ha, byKind_other hu hm]
                    rfl
                  rw [hst]
                  refine .inr ⟨rfl, ?_⟩
                  intro l q hl hc
                  refine ⟨[(seg, mx)], .here List.mem_cons_self, ⟨?_, by simpa using hkm⟩, [], seg.kind, ?_⟩
                  · simp only [Covers]
                    exact ⟨by omega, by rw [ha, hks], hku, fun h => absurd h hkm, fun _ => by trivial⟩
                  · rcases Leaf.cons_split.1 hl with h | h
                    · rcases hself h with ⟨g, _⟩ | ⟨t, rfl, ht⟩
                      · cases g
                      · have := (hfst hc).2.2.2.2 hkm
                        obtain ⟨_, _, _, rfl, _⟩ := leaf_head ht
                        exact absurd this (by simp [Covers])
                    · obtain ⟨c, hc1, t, rfl, _⟩ := leaf_head h
                      have h0 : t = [] := by
                        by_cases hcm : c.seg.kind = .multiple
                        · exact (hfst hc).2.2.2.1 hcm
                        · have := (hfst hc).2.2.2.2 hcm
                          cases t with
                          | nil => rfl
                          | cons _ _ => exact absurd this (by simp [Covers])
                      subst h0
                      refine ⟨c.seg.kind, rfl, rfl, Nat.lt_of_le_of_ne (o1 c hc1) fun e => ?_⟩
                      exact o2 c hc1 (code_inj e) u (hsub u (by simp)) ⟨by rw [ha, hks], (hfst hc).2.1⟩
                | some p =>
                  refine hsucc p _ [(seg, mx)] rfl (.here List.mem_cons_self) ?_ ?_ ?_
                  · simp only [Covers]
                    exact ⟨by omega, by rw [ha, hks], hku, fun h => absurd h hkm, fun _ => by trivial⟩
                  · rintro ⟨l', g1, g2, _⟩
                    rcases hbare g1 with ⟨g, _⟩ | ⟨t, rfl, g⟩
                    · cases g
                    · have := full_length g2
                      obtain ⟨_, _, _, rfl, _⟩ := bare_head g
                      simp at this
                  · intro l' q hl' hc' _
                    have := (hcov hl' hc').2.2.2 hkm
                    obtain ⟨a, ha', t, rfl, _⟩ := leaf_head hl'
                    rw [List.mem_singleton] at ha'
                    subst ha'
                    cases t with
                    | nil => exact more_specific_refl _
                    | cons _ _ => exact absurd this (by simp [Covers])
              | cons v us =>
                have hlen : kids.length < 65536 := (hgood.kids (n := .mk mx pr seg pat kids) List.mem_cons_self).top.few
                have hbelow : below acc d kids (v :: us) = tryC acc (d + 1) kids kids.length (v :: us) := by
                  rw [below, if_pos (by simp at hd; omega), Nat.mod_eq_of_lt hlen]
                rw [hbelow] at hfail hsucc
                have hI := ih kids (by have := sizeOf_kids mx pr seg pat kids rest; omega) (d + 1) kids.length (v :: us)
                  (hgood.kids (n := .mk mx pr seg pat kids) List.mem_cons_self) (fun w hw => hsub w (by simp at hw ⊢; exact .inr hw))
                  (fun s hs w hw => hacc s (.down List.mem_cons_self hs) w (by simp at hw ⊢; exact .inr hw))
                  (by simp at hd ⊢; omega) (by simp) (Nat.le_refl _)
                -- hidden here and hidden below are the same
                have hup : ∀ {t}, Hides acc kids (v :: us) t → Hides acc [.mk mx pr seg pat kids] (u :: v :: us) ((seg, mx) :: t) := by
                  rintro t ⟨l', g1, g2, ks, a, b, g3, g4, g5⟩
                  refine ⟨(seg, mx) :: l', .down List.mem_cons_self g1, ⟨?_, ?_⟩, seg.kind :: ks, a, b, ?_, ?_, g5⟩
                  · simp only [Covers]
                    exact ⟨by simp at hmx ⊢; omega, by rw [ha, hks], hku, fun h => absurd h hkm, fun _ => g2.1⟩
                  · intro c hc
                    rcases List.mem_cons.1 hc with rfl | hc
                    · exact hkm
                    · exact g2.2 c hc
                  · simp only [kindsOf, List.map_cons, List.cons_append] at g3 ⊢; rw [g3]
                  · simp only [kindsOf, List.map_cons, List.cons_append] at g4 ⊢; rw [g4]
                have hdown : ∀ {t}, t ≠ [] → Hides acc [.mk mx pr seg pat kids] (u :: v :: us) ((seg, mx) :: t) → Hides acc kids (v :: us) t := by
                  rintro t ht ⟨l', g1, g2, ks, a, b, g3, g4, g5⟩
                  rcases hbare g1 with ⟨_, rfl⟩ | ⟨t', rfl, g⟩
                  · have := full_length g2; simp at this
                  · cases ks with
                    | nil =>
                      simp only [kindsOf, List.map_cons, List.nil_append, List.cons.injEq, List.map_eq_nil_iff] at g4
                      exact absurd g4.2 ht
                    | cons k ks =>
                      simp only [kindsOf, List.map_cons, List.cons_append, List.cons.injEq] at g3 g4
                      exact ⟨t', g, ⟨(hfst g2.1).2.2.2.2 hkm, fun c hc => g2.2 c (by simp [hc])⟩, ks, a, b, g3.2, g4.2, g5⟩
                have hnil : ∀ {t q}, Leaf kids t q → t ≠ [] := by
                  intro t q h; obtain ⟨_, _, _, rfl, _⟩ := leaf_head h; simp
                rcases hI with ⟨p, ls, l, h1, h2, h3, h4, h5⟩ | ⟨h1, h2⟩
                · refine hsucc p (k :: ls) ((seg, mx) :: l) (by rw [h1]; rfl) (.down List.mem_cons_self h2) ?_ ?_ ?_
                  · simp only [Covers]
                    exact ⟨by simp at hmx ⊢; omega, by rw [ha, hks], hku, fun h => absurd h hkm, fun _ => h3⟩
                  · exact fun h => h4 (hdown (hnil h2) h)
                  · intro l' q hl' hc' hnh
                    have hc2 := (hcov hl' hc').2.2.2 hkm
                    rcases hself hl' with ⟨_, rfl⟩ | ⟨t, rfl, ht⟩
                    · simp [Covers] at hc2
                    · simp only [kindsOf, List.map_cons]
                      exact more_specific_cons (Nat.le_refl _) fun _ => h5 t q ht hc2 fun h => hnh (hup h)
                · refine hfail (by rw [h1]; rfl) ?_ (fun _ _ _ => by simp)
                  intro l q hl hc
                  have hc2 := (hcov hl hc).2.2.2 hkm
                  rcases hself hl with ⟨_, rfl⟩ | ⟨t, rfl, ht⟩
                  · simp [Covers] at hc2
                  · exact hup (h2 t q ht hc2)

/-! ### Registered patterns -/

variable {x : Ext} {ci : Bool} {srt : List Node → List Node}

theorem every_has {P : List Node → Prop} {Q : Segment → Prop} {ns : List Node} (h : Every P ns) (hq : ∀ s, Has ns s → Q s) :
    Every (fun ns => P ns ∧ ∀ n ∈ ns, Q n.seg) ns := by
  induction h with
  | @mk ns h1 _ ih =>
    refine .mk ⟨h1, fun n hn => ?_⟩ fun n hn => ih n hn fun s hs => ?_
    · cases n; exact hq _ (.here hn)
    · cases n; exact hq _ (.down hn hs)

theorem every_and {P Q : List Node → Prop} {ns : List Node} (h : Every P ns) (h' : Every Q ns) : Every (fun ns => P ns ∧ Q ns) ns := by
  induction h with
  | mk h1 _ ih => exact .mk ⟨h1, h'.top⟩ fun n hn => ih n hn (h'.kids hn)

/-- Siblings stem from different registrations. -/
theorem registered_rivals {R : Segment → Segment → Prop} (hsym : ∀ {a b}, R a b → R b a) (hp : ∀ l, (srt l).Perm l) {ps : List Pattern} {m : Matcher}
    (hr : Registered x ci srt ps m) (hR : ps.Pairwise fun p q => ∀ s ∈ p.segments, ∀ t ∈ q.segments, R s t) :
    Every (List.Pairwise fun a b => R a.seg b.seg) m.kids := by
  have hsym' : ∀ {a b : Node}, R a.seg b.seg → R b.seg a.seg := hsym
  have step : ∀ {m m' : Matcher} {p : Pattern} {r : Bool} {ps : List Pattern}, Every (List.Pairwise fun a b => R a.seg b.seg) m.kids →
      (∀ s, Has m.kids s → ∃ q ∈ ps, s ∈ q.segments) → addPattern x ci srt m p = (m', r) →
      (r = false → ∀ q ∈ ps, ∀ s ∈ p.segments, ∀ t ∈ q.segments, R s t) → Every (List.Pairwise fun a b => R a.seg b.seg) m'.kids := by
    intro m m' p r ps h hn ha hR
    unfold addPattern at ha
    cases hs : p.segments with
    | nil =>
      rw [hs] at ha
      cases hr : m.root with
      | some q => rw [hr] at ha; simp only [Prod.mk.injEq] at ha; rw [← ha.1]; exact h
      | none => rw [hr] at ha; simp only [Prod.mk.injEq] at ha; rw [← ha.1]; exact h
    | cons s ss =>
      rw [hs] at ha hR
      simp only [Prod.mk.injEq] at ha
      rw [← ha.1]
      refine insert_every (p := p) (P := fun ns => (ns.Pairwise fun a b => R a.seg b.seg) ∧ ∀ n ∈ ns, ∃ q ∈ ps, n.seg ∈ q.segments)
        (A := r = false) hp (fun _ h => h.1) .nil (by simp) ?_ (s :: ss) ?_ ss 0 s m.kids (fun h => ha.2 ▸ h) (fun _ h => h) (every_has h hn)
      · intro a b n n' hP hseg _ _ _
        have hP := hP.1
        rw [List.pairwise_append, List.pairwise_cons] at hP ⊢
        refine ⟨hP.1, ⟨by rw [hseg]; exact hP.2.1.1, hP.2.1.2⟩, ?_⟩
        intro c hc d hd
        rcases List.mem_cons.1 hd with rfl | hd
        · rw [hseg]; exact hP.2.2 c hc n (by simp)
        · exact hP.2.2 c hc d (by simp [hd])
      · intro hA i s' ss' kids hs' hP _
        refine (List.Perm.pairwise_iff hsym' (hp _)).2 ?_
        rw [List.pairwise_append]
        refine ⟨hP.1, by simp, ?_⟩
        intro c hc d hd
        rw [List.mem_singleton] at hd
        subst hd
        obtain ⟨q, hq, hcq⟩ := hP.2 c hc
        obtain ⟨pat, ks, he⟩ := chain_eq_mk p i s' ss'
        rw [he]
        exact hsym (hR hA q hq s' hs' _ hcq)
  induction hr with
  | new => exact .mk .nil (by intro n hn; cases hn)
  | added raw a hr _ ha ih =>
    rw [List.pairwise_cons] at hR
    exact step (ih hR.2) (holds hp hr).nodes ha fun _ => hR.1
  | refused raw a hr _ ha ih => exact step (ih hR) (holds hp hr).nodes ha fun h => nomatch h

/-- The way of a registered pattern, cut: a pattern ends there or none does. -/
theorem leaf_cut {ns : List Node} {l : List (Segment × UInt8)} {q : Pattern} (h : Leaf ns l q) :
    ∀ k, 0 < k → k < l.length → Bare ns (l.take k) ∨ ∃ p, Leaf ns (l.take k) p := by
  induction h with
  | here _ => intro k h1 h2; simp at h2; omega
  | @down ns mx pr seg pat kids l q hm _ ih =>
    intro k h1 h2
    obtain ⟨k, rfl⟩ : ∃ j, k = j + 1 := ⟨k - 1, by omega⟩
    rw [List.take_succ_cons]
    cases k with
    | zero =>
      rw [List.take_zero]
      cases pat with
      | none => exact .inl (.here hm)
      | some p => exact .inr ⟨p, .here hm⟩
    | succ k =>
      rcases ih (k + 1) (by omega) (by simpa using h2) with h | ⟨p, h⟩
      · exact .inl (.down hm h)
      · exact .inr ⟨p, .down hm h⟩

/-- Ways of the same kinds that accept the same request are the same. -/
theorem bare_leaf {us0 : List U} {ns : List Node} {l : List (Segment × UInt8)} (h : Bare ns l) :
    ∀ {l' : List (Segment × UInt8)} {q : Pattern} {us : List U}, Leaf ns l' q → Every (Sharp acc us0) ns → (∀ u ∈ us, u ∈ us0) →
      Covers acc l us → Covers acc l' us → kindsOf l = kindsOf l' → False := by
  have one : ∀ {ns : List Node} {a b : Node} {u : U}, Sharp acc us0 ns → a ∈ ns → b ∈ ns → a.seg.kind = b.seg.kind → u ∈ us0 →
      acc a.seg u = some a.seg.kind → acc b.seg u = some b.seg.kind → a = b := by
    intro ns a b u hs ha hb hk hu h1 h2
    have hp := hs.settled
    clear hs
    induction ns with
    | nil => cases ha
    | cons n ns ih =>
      rw [List.pairwise_cons] at hp
      rcases List.mem_cons.1 ha with ha' | ha'
      · rcases List.mem_cons.1 hb with hb' | hb'
        · rw [ha', hb']
        · subst ha'; exact absurd ⟨h1, h2⟩ (hp.1 b hb' hk u hu)
      · rcases List.mem_cons.1 hb with hb' | hb'
        · subst hb'; exact absurd ⟨h2, h1⟩ (hp.1 a ha' hk.symm u hu)
        · exact ih ha' hb' hp.2
  induction h with
  | @here ns mx pr seg kids hm =>
    intro l' q us hl' hg hsub hc hc' hk
    cases us with
    | nil => simp [Covers] at hc
    | cons u us =>
      cases hl' with
      | here hm' =>
        simp only [kindsOf, List.map_cons, List.map_nil, List.cons.injEq, and_true] at hk
        simp only [Covers] at hc hc'
        have := one hg.top hm hm' hk (hsub u (by simp)) hc.2.1 hc'.2.1
        cases this
      | down hm' hl =>
        obtain ⟨_, _, _, rfl, _⟩ := leaf_head hl
        simp [kindsOf] at hk
  | @down ns mx pr seg pat kids l hm hb ih =>
    intro l' q us hl' hg hsub hc hc' hk
    cases us with
    | nil => simp [Covers] at hc
    | cons u us =>
      cases hl' with
      | here hm' =>
        obtain ⟨_, _, _, rfl, _⟩ := bare_head hb
        simp [kindsOf] at hk
      | @down _ mx' pr' seg' pat' kids' l' _ hm' hl =>
        simp only [kindsOf, List.map_cons, List.cons.injEq] at hk
        simp only [Covers] at hc hc'
        have := one hg.top hm hm' hk.1 (hsub u (by simp)) hc.2.1 hc'.2.1
        cases this
        by_cases hm0 : seg.kind = .multiple
        · obtain ⟨_, _, _, rfl, _⟩ := bare_head hb
          exact absurd (hc.2.2.2.1 hm0) (by simp)
        · exact ih hl (hg.kids hm) (fun w hw => hsub w (by simp [hw])) (hc.2.2.2.2 hm0) (hc'.2.2.2.2 hm0) hk.2

/-- The beginning of the way of a registered pattern covers the requests it describes. -/
theorem covers_beginning {p : Pattern} (hmax : p.isGreedy = true ∨ (p.maxMatchable.toNat = p.segments.length ∧ ∀ s ∈ p.segments, s.kind ≠ .multiple))
    {us0 : List Str} : ∀ (ss : List Segment) (i : Nat) (l : List (Segment × UInt8)) (us : List Str),
    All2 (fun c n => (c.1 = n.1 ∨ shares x ci n.1 c.1 = true) ∧ n.2.toNat ≤ c.2.toNat) l (chainPath p i ss) →
    (∀ c s u, (c ∈ l.map (·.1)) → s ∈ ss → u ∈ us0 → (c = s ∨ shares x ci s c = true) → Fit x ci s u → matchText x ci c u = some c.kind ∧ c.kind ≠ .unknown) →
    Describes x ci ss us → (∀ s ∈ ss, s.kind ≠ .multiple) → i + ss.length ≤ p.segments.length → us.length ≤ 255 → (∀ u ∈ us, u ∈ us0) →
    Full (matchText x ci) l us := by
  intro ss
  induction ss with
  | nil =>
    intro i l us h _ hd _ _ _ _
    rw [describes_nil] at hd
    subst hd
    cases h
    exact ⟨by simp [Covers], by simp⟩
  | cons s ss ih =>
    intro i l us h hacc hd hst hlen hus hsub
    rw [chainPath] at h
    cases h with
    | @cons c _ l _ hr ht =>
      obtain ⟨c, mx⟩ := c
      simp only at hr
      have hk := on_kind hr.1
      have hs := hst s (by simp)
      obtain ⟨u, vs, rfl, h1, h2⟩ := (describes_one hs).1 hd
      have hl2 := describes_length (fun t ht => hst t (by simp [ht])) h2
      obtain ⟨g1, g2⟩ := hacc c s u (by simp) (by simp) (hsub u (by simp)) hr.1 h1
      have hI := ih (i + 1) l vs ht (fun c' s' w hc' hs' hw => hacc c' s' w (by simp at hc' ⊢; exact .inr hc') (by simp [hs']) hw) h2
        (fun t ht => hst t (by simp [ht])) (by simp at hlen; omega) (by simp at hus; omega) (fun w hw => hsub w (by simp [hw]))
      refine ⟨?_, ?_⟩
      · simp only [Covers]
        refine ⟨?_, g1, g2, fun h => absurd (hk.symm.trans h) hs, fun _ => hI.1⟩
        refine Nat.le_trans ?_ hr.2
        unfold maxAt
        by_cases hg : p.isGreedy = true
        · rw [if_pos hg]; simpa using hus
        · rw [if_neg hg]
          obtain ⟨h4, _⟩ := hmax.resolve_left hg
          simp only [List.length_cons] at hlen
          have : p.segments.length < 256 := by rw [← h4]; exact p.maxMatchable.toNat_lt
          rw [UInt8.toNat_sub, h4]
          have : (UInt8.ofNat i).toNat = i := by simp [UInt8.toNat_ofNat']; omega
          rw [this]
          omega
      · intro d hd'
        rcases List.mem_cons.1 hd' with rfl | hd'
        · exact fun h => hs (hk.symm.trans h)
        · exact hI.2 d hd'

theorem chainPath_take (p : Pattern) : ∀ (ss : List Segment) (i k : Nat), (chainPath p i ss).take k = chainPath p i (ss.take k) := by
  intro ss
  induction ss with
  | nil => intro i k; simp [chainPath]
  | cons s ss ih =>
    intro i k
    cases k with
    | zero => simp [chainPath]
    | succ k => simp [chainPath, ih]

theorem all2_take {α β : Type} {R : α → β → Prop} {l : List α} {m : List β} (h : All2 R l m) (k : Nat) : All2 R (l.take k) (m.take k) := by
  induction h generalizing k with
  | nil => simp; exact .nil
  | cons hr _ ih =>
    cases k with
    | zero => exact .nil
    | succ k => exact .cons hr (ih k)

theorem full_all2 : ∀ {l : List (Segment × UInt8)} {us : List U}, Full acc l us →
    All2 (fun c u => acc c.1 u = some c.1.kind ∧ c.1.kind ≠ .multiple) l us := by
  intro l
  induction l with
  | nil => intro us h; have := h.1; simp only [Covers] at this; subst this; exact .nil
  | cons c l ih =>
    intro us h
    obtain ⟨s, mx⟩ := c
    cases us with
    | nil => exact absurd h.1 (by simp [Covers])
    | cons u us =>
      have := h.1
      simp only [Covers] at this
      have hs := h.2 (s, mx) (by simp)
      exact .cons ⟨this.2.1, hs⟩ (ih ⟨this.2.2.2.2 hs, fun c hc => h.2 c (by simp [hc])⟩)

/-- A way to a node without pattern continues. -/
theorem bare_thru {ns : List Node} {l : List (Segment × UInt8)} (h : Bare ns l) (hlive : Every (fun ns => ∀ n ∈ ns, n.pat.isSome ∨ n.kids ≠ []) ns) :
    ∃ l' c, Thru ns (l' ++ [c]) ∧ l'.map (·.1) = l.map (·.1) := by
  induction h with
  | @here ns mx pr seg kids hm =>
    rcases hlive.top _ hm with h | h
    · simp [Node.pat] at h
    · simp only [Node.kids] at h
      cases kids with
      | nil => exact absurd rfl h
      | cons k ks => cases k; exact ⟨[(seg, pr)], _, .down hm (.here List.mem_cons_self), rfl⟩
  | @down ns mx pr seg pat kids l hm _ ih =>
    obtain ⟨l', c, h1, h2⟩ := ih (hlive.kids hm)
    exact ⟨(seg, pr) :: l', c, .down hm h1, by simp [h2]⟩

theorem starsLast_take {ss : List Segment} (h : StarsLast ss) {k : Nat} (hk : k < ss.length) : ∀ s ∈ ss.take k, s.kind ≠ .multiple := by
  intro s hs hm
  obtain ⟨a, b, e⟩ := List.append_of_mem hs
  have := h a s (b ++ ss.drop k) (by
    rw [show a ++ s :: (b ++ ss.drop k) = (a ++ s :: b) ++ ss.drop k by simp, ← e, List.take_append_drop]) hm
  have h2 := congrArg List.length this
  simp at h2
  omega

theorem covers_accepts : ∀ {l : List (Segment × UInt8)} {us : List U}, Covers acc l us → ∀ c ∈ l, ∃ u ∈ us, acc c.1 u = some c.1.kind := by
  intro l
  induction l with
  | nil => intro us _ c hc; cases hc
  | cons c l ih =>
    intro us h
    obtain ⟨s, mx⟩ := c
    cases us with
    | nil => exact absurd h (by simp [Covers])
    | cons u us =>
      simp only [Covers] at h
      intro d hd
      rcases List.mem_cons.1 hd with rfl | hd
      · exact ⟨u, by simp, h.2.1⟩
      · by_cases hs : s.kind = .multiple
        · rw [h.2.2.2.1 hs] at hd; cases hd
        · obtain ⟨w, hw, hw'⟩ := ih (h.2.2.2.2 hs) d hd
          exact ⟨w, by simp [hw], hw'⟩

/-- The answer for a non-empty request, exactly. -/
theorem answer_exact (hl : FoldLaws x.eqFold) (hp : ∀ l, (srt l).Perm l) (hs : ∀ l, (srt l).Pairwise fun a b => siblingLE a b = true)
    {ps : List Pattern} {m : Matcher} (hr : Registered x ci srt ps m)
    (hplain : ∀ p ∈ ps, ∀ s ∈ p.segments, Plain ci s) (hfew : ps.length < 65536) (hstars : ∀ p ∈ ps, StarsLast p.segments)
    (hshort : ∀ p ∈ ps, (pieces p.raw).length ≤ 19)
    {us : List Str} (hset : Settled x ci ps us) (hcon : Unrivalled x ci ps us) (h19 : us.length ≤ 19) (hex : Faithful ci ps us) (hne : us ≠ []) :
    (∃ p ls, answer (matchText x ci) m us = .found p ls ∧ p ∈ ps ∧ Describes x ci p.segments us ∧ ¬ Hidden x ci ps us p.segments ∧
      ∀ q ∈ ps, Describes x ci q.segments us → ¬ Hidden x ci ps us q.segments → MoreSpecific (kinds p.segments) (kinds q.segments)) ∨
    (answer (matchText x ci) m us = .none ∧ ∀ q ∈ ps, Describes x ci q.segments us → Hidden x ci ps us q.segments) := by
  have hh := holds hp hr
  have hpiece := Gofre.Props.registered_piece hr
  have hlive := registered_live hp hr
  have hlong : ∀ p ∈ ps, (pieces p.raw).length < 256 := fun p hp => by have := hshort p hp; omega
  have hsharp : Every (Sharp (matchText x ci) us) m.kids := by
    have hriv := registered_rivals (R := fun s t => s.kind = .constraint → t.kind = .constraint → ∀ u ∈ us, ¬ (Fit x ci s u ∧ Fit x ci t u))
      (fun h h1 h2 u hu h3 => h h2 h1 u hu h3.symm) hp hr hcon
    have hfair := fair (A := True) hl hp hr hplain hfew hstars (fun _ => hs) (fun _ => hshort) (us0 := us) (fun _ => hset)
    refine (every_has (every_and hfair hriv) (Q := fun s => ∃ p ∈ ps, s ∈ p.segments) hh.nodes).imp ?_
    rintro ns ⟨⟨hf, hv⟩, hq⟩
    refine ⟨hf.ordered trivial, ?_, hf.star, hf.few⟩
    refine ((hf.settled trivial).and hv).imp_of_mem ?_
    intro a b ha hb h hk u hu ⟨h1, h2⟩
    by_cases hc : a.seg.kind = .constraint
    · obtain ⟨p, hpp, hap⟩ := hq a ha
      obtain ⟨q, hqq, hbq⟩ := hq b hb
      exact h.2 hc (hk ▸ hc) u hu ⟨fit_of_match (hpiece p hpp _ hap) h1, fit_of_match (hpiece q hqq _ hbq) h2⟩
    · exact h.1 hk hc u hu ⟨h1, h2⟩
  have hkl : m.kids.length < 65536 := hsharp.top.few
  have hans : answer (matchText x ci) m us = (tryC (matchText x ci) 0 m.kids m.kids.length us).toM := by
    unfold answer
    split
    · exact absurd rfl hne
    · rw [Nat.mod_eq_of_lt hkl]
  have hacc : ∀ {l : List (Segment × UInt8)} {q : Pattern} {ss : List Segment}, (∀ c ∈ l, Has m.kids c.1) → q ∈ ps → (∀ s ∈ ss, s ∈ q.segments) →
      ∀ c s u, (c ∈ l.map (·.1)) → s ∈ ss → u ∈ us → (c = s ∨ shares x ci s c = true) → Fit x ci s u → matchText x ci c u = some c.kind ∧ c.kind ≠ .unknown := by
    intro l q ss hhas hq hss c s u hc hs' hu hcs hf
    obtain ⟨c', hc', rfl⟩ := List.mem_map.1 hc
    obtain ⟨p', hp', hcp⟩ := hh.nodes _ (hhas c' hc')
    refine ⟨?_, piece_unknown (hpiece p' hp' _ hcp)⟩
    exact accepts hl (hpiece p' hp' _ hcp) (hpiece q hq _ (hss s hs')) (hplain p' hp' _ hcp) (hplain q hq _ (hss s hs')) hcs
      (fun hk => hex.wild p' hp' _ hcp hk u hu) (fun hci => ⟨hex.request hci u hu, fun hk => hex.pats hci p' hp' _ hcp hk⟩) hf
  have hnn : ∀ q ∈ ps, Describes x ci q.segments us → q.segments ≠ [] := by
    intro q _ hd h
    rw [h, describes_nil] at hd
    exact hne hd
  -- the way of a pattern that describes the request
  have hway : ∀ q ∈ ps, Describes x ci q.segments us → ∃ l, Leaf m.kids l q ∧ Covers (matchText x ci) l us ∧ kindsOf l = kinds q.segments := by
    intro q hq hd
    obtain ⟨l, h1, h2⟩ := hh.added q hq (hnn q hq hd)
    have hon := (hh.leaf l q h1).2
    refine ⟨l, h1, ?_, (onNode_kinds hon).symm⟩
    exact covers_of_describes (us0 := us) (registered_max hr hq (hlong q hq) (hnn q hq hd)) q.segments 0 l us h2
      (hacc (has_of_leaf h1) hq fun _ h => h) hd (hstars q hq) (by simp) (fun _ h => h) (by omega) (fun _ h => h)
  -- a covered way is described
  have hdesc : ∀ l q, Leaf m.kids l q → Covers (matchText x ci) l us → q ∈ ps ∧ Describes x ci q.segments us ∧ kindsOf l = kinds q.segments := by
    intro l q h1 h2
    obtain ⟨h3, h4⟩ := hh.leaf l q h1
    refine ⟨h3, ?_, (onNode_kinds h4).symm⟩
    have hst := hstars q h3
    have key : ∀ (l : List (Segment × UInt8)) (ss : List Segment) (vs : List Str), OnNode x ci l ss → Covers (matchText x ci) l vs → StarsLast ss →
        (∀ c ∈ l, Has m.kids c.1) → (∀ s ∈ ss, s ∈ q.segments) → Describes x ci ss vs := by
      intro l
      induction l with
      | nil => intro ss vs h h' _ _ _; cases h; simp only [Covers] at h'; subst h'; exact describes_nil.2 rfl
      | cons c l ih =>
        intro ss vs h h' hst hhas hmem
        obtain ⟨c, mx⟩ := c
        cases h with
        | @cons _ s _ ss hr ht =>
          cases vs with
          | nil => exact absurd h' (by simp [Covers])
          | cons u vs =>
            simp only [Covers] at h'
            have hk := on_kind hr
            obtain ⟨p', hp', hcp⟩ := hh.nodes _ (hhas (c, mx) (by simp))
            have hfit := fit_shared hl (hpiece p' hp' _ hcp) (hpiece q h3 _ (hmem s (by simp))) (hplain p' hp' _ hcp) (hplain q h3 _ (hmem s (by simp))) hr h'.2.1
            by_cases hm : s.kind = .multiple
            · have h0 := hst [] s ss rfl hm
              subst h0
              exact (describes_star hm).2 ⟨u :: vs, [], by simp, by simp, describes_nil.2 rfl⟩
            · exact (describes_one hm).2 ⟨u, vs, rfl, hfit, ih ss vs ht (h'.2.2.2.2 (by simp only at hk; rw [hk]; exact hm)) (fun a t b e ht => hst (s :: a) t b (by rw [e]; rfl) ht)
                (fun c hc => hhas c (by simp [hc])) fun s hs => hmem s (by simp [hs])⟩
    exact key l q.segments us h4 h2 hst (has_of_leaf h1) fun _ h => h
  -- hidden in the trie and hidden among the patterns
  have hhide : ∀ l q, Leaf m.kids l q → Covers (matchText x ci) l us → (Hides (matchText x ci) m.kids us l ↔ Hidden x ci ps us q.segments) := by
    intro l q h1 h2
    obtain ⟨_, _, hkq⟩ := hdesc l q h1 h2
    constructor
    · rintro ⟨l', g1, g2, ks, a, b, g3, g4, g5⟩
      obtain ⟨l'', c, e1, e2⟩ := bare_thru g1 hlive
      obtain ⟨p, hpp, ⟨t, ⟨r, e3⟩, e4⟩, eprio⟩ := registered_thru hp hr _ e1
      obtain ⟨t1, t2, rfl, e5, e6⟩ := all2_append_left e4
      have e7 := e6.length
      simp only [List.length_cons, List.length_nil] at e7
      have e8 := e5.length
      have e9 := congrArg List.length e2
      simp only [List.length_map] at e9
      have e10 := full_length g2
      have hpos := List.length_pos_iff.2 hne
      have htake : p.segments.take t1.length = t1 := by rw [← e3, List.append_assoc, List.take_left']; rfl
      have hkt : kinds t1 = kindsOf l' := by
        have e : t1.map (·.kind) = l''.map (·.1.kind) := by
          clear e8 htake e1 e2 e3 e4 e9 eprio
          induction e5 with
          | nil => rfl
          | cons h1 _ ih => rw [List.map_cons, List.map_cons, ih, on_kind h1]
        show t1.map (·.kind) = l'.map (·.1.kind)
        rw [e]
        have := congrArg (List.map (·.kind)) e2
        rw [List.map_map, List.map_map] at this
        exact this
      have hall : All2 (fun (c : Segment × Nat) (u : Str) => matchText x ci c.1 u = some c.1.kind ∧ c.1.kind ≠ .multiple) l'' us := by
        have := full_all2 g2
        have h' : All2 (fun (c : Segment) (u : Str) => matchText x ci c u = some c.kind ∧ c.kind ≠ .multiple) (l'.map (·.1)) us := All2.map_left.2 this
        rw [← e2] at h'
        exact all2_map_left h'
      have hdt : Describes x ci t1 us := by
        refine describes_of_all2 (all2_trans e5 hall ?_)
        intro c s u hc hs' hu hcs hm
        obtain ⟨p', hp', hcp⟩ := hh.nodes _ (has_of_thru e1 c (by simp [hc]))
        have hsp : s ∈ p.segments := by rw [← e3]; simp [hs']
        exact ⟨by rw [← on_kind hcs]; exact hm.2,
          fit_shared hl (hpiece p' hp' _ hcp) (hpiece p hpp _ hsp) (hplain p' hp' _ hcp) (hplain p hpp _ hsp) hcs hm.1⟩
      refine ⟨p, hpp, t1.length, by omega, by rw [← e3]; simp; omega, ?_⟩
      rw [htake, hkt, ← hkq]
      refine ⟨hdt, ?_, ks, a, b, g3, g4, by rw [rank_code]; exact g5⟩
      intro p' hp' hd' hk'
      obtain ⟨lp, f1, f2, f3⟩ := hway p' hp' hd'
      exact bare_leaf g1 f1 hsharp (fun _ h => h) g2.1 f2 (by rw [f3]; exact hk'.symm)
    · rintro ⟨p, hpp, k, k0, k1, hd, hno, ks, a, b, g3, g4, g5⟩
      have hpn : p.segments ≠ [] := by intro h; rw [h] at k1; simp at k1
      obtain ⟨lp, f1, f2⟩ := hh.added p hpp hpn
      have hon := (hh.leaf lp p f1).2
      have hlk : lp.length = p.segments.length := hon.length
      have hfull : Full (matchText x ci) (lp.take k) us := by
        refine covers_beginning (us0 := us) (registered_max hr hpp (hlong p hpp) hpn) (p.segments.take k) 0 (lp.take k) us ?_ ?_ hd
          (starsLast_take (hstars p hpp) k1) (by simp; omega) (by omega) (fun _ h => h)
        · rw [← chainPath_take]; exact all2_take f2 k
        · exact hacc (fun c hc => has_of_leaf f1 c (List.mem_of_mem_take hc)) hpp fun s hs => List.mem_of_mem_take hs
      have hkk : kindsOf (lp.take k) = kinds (p.segments.take k) := by
        rw [kindsOf, kinds, List.map_take, List.map_take, onNode_kinds hon]
      rcases leaf_cut f1 k k0 (by rw [hlk]; exact k1) with h | ⟨p', h⟩
      · exact ⟨lp.take k, h, hfull, ks, a, b, by rw [hkk]; exact g3, by rw [hkq]; exact g4, by rw [← rank_code]; exact g5⟩
      · obtain ⟨i1, i2, i3⟩ := hdesc _ _ h hfull.1
        exact absurd (i3.symm.trans hkk) (hno p' i1 i2)
  have hex' := tryC_exact (acc := matchText x ci) (fun _ _ _ => matchText_kind) us _ m.kids (Nat.le_refl _) 0 m.kids.length us hsharp (fun _ h => h)
    (fun s hs u hu => by
      obtain ⟨p, hpp, hsp⟩ := hh.nodes s hs
      exact Gofre.Props.matchText_some (hpiece p hpp s hsp) fun hk => (hex.wild p hpp s hsp hk u hu).1)
    (by omega) hne (Nat.le_refl _)
  rcases hex' with ⟨p, ls, l, h1, h2, h3, h4, h5⟩ | ⟨h1, h2⟩
  · obtain ⟨i1, i2, i3⟩ := hdesc l p h2 h3
    refine .inl ⟨p, ls, by rw [hans, h1]; rfl, i1, i2, fun h => h4 ((hhide l p h2 h3).2 h), ?_⟩
    intro q hq hd hnh
    obtain ⟨l', g1, g2, g3⟩ := hway q hq hd
    rw [← g3, ← i3]
    exact h5 l' q g1 g2 fun h => hnh ((hhide l' q g1 g2).1 h)
  · refine .inr ⟨by rw [hans, h1]; rfl, ?_⟩
    intro q hq hd
    obtain ⟨l', g1, g2, _⟩ := hway q hq hd
    exact (hhide l' q g1 g2).1 (h2 l' q g1 g2)

end Gofre.Path
