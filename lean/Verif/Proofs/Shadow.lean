import Verif.Proofs.StarsRoute
import Verif.Proofs.Unique

/-! # Patterns that are never found -/

namespace Gofre.Path
open Gofre.Spec

variable {x : Ext} {ci : Bool} {srt : List Node → List Node}

/-- Before every node of the level that holds `p` there is one that accepts any segment. -/
def Shadowed (p : Pattern) (ns : List Node) : Prop :=
  ∀ a n b, ns = a ++ n :: b → n.pat = some p → n.seg.kind ≠ .multiple ∧ ∃ c ∈ a, c.seg.kind = .capture ∧ 1 ≤ c.max.toNat

theorem capture_not_next {U : Type} {acc : Segment → U → Option MT} (hc : ∀ s u, s.kind = .capture → acc s u = some .capture)
    {n : Node} {u : U} {d : Nat} (hk : n.seg.kind = .capture) (hm : 1 ≤ n.max.toNat) :
    tryN acc d n [u] ≠ .next := by
  cases n with
  | mk mx pr seg pat kids =>
    simp only [Node.seg, Node.max] at hk hm
    have hacc : acc seg u = some .capture := hc _ _ hk
    unfold tryN
    simp only [List.length_cons, List.length_nil, hacc]
    rw [if_neg (by omega)]
    cases pat <;> simp

theorem starLoop_no {U : Type} {any : U → Option Bool} {f : List U → Res} {p : Pattern} (hf : ∀ vs ls, f vs ≠ .found p ls) :
    ∀ (us : List U) (ls : List MT), starLoop any f us ≠ .found p ls := by
  intro us
  induction us with
  | nil => intro ls; simp [starLoop]
  | cons u us ih =>
    intro ls
    have hc : ∀ ls, (starLoop any f us).cons .multiple ≠ .found p ls := by
      intro ls
      cases hs : starLoop any f us with
      | found q l =>
        simp only [Res.cons, ne_eq, Res.found.injEq, not_and]
        intro e
        exact absurd hs (by rw [e]; exact ih _)
      | next => simp [Res.cons]
      | stop => simp [Res.cons]
      | abort => simp [Res.cons]
      | panic => simp [Res.cons]
    unfold starLoop
    split
    · simp
    · exact hc ls
    · split
      · exact hc ls
      · exact hf _ _

/-- A shadowed pattern is not found. -/
theorem shadowed_not_found {U : Type} {acc : Segment → U → Option MT} (hcap : ∀ s u, s.kind = .capture → acc s u = some .capture)
    (hmul : ∀ s u, acc s u = some .multiple → s.kind = .multiple) {p : Pattern} : ∀ (k : Nat) (ns : List Node), sizeOf ns ≤ k → ∀ (d b : Nat) (us : List U) (ls : List MT),
    (∀ c ∈ ns, Every (Shadowed p) c.kids) →
    (∀ a n b, ns = a ++ n :: b → n.pat = some p → n.seg.kind ≠ .multiple ∧
      (us.length ≠ 1 ∨ ∃ c ∈ a, c.seg.kind = .capture ∧ 1 ≤ c.max.toNat)) →
    tryC acc d ns b us ≠ .found p ls := by
  intro k
  induction k with
  | zero => intro ns h; cases ns <;> simp at h
  | succ k ih =>
    intro ns hs d b us ls hkids hlev
    cases ns with
    | nil => simp [tryC]
    | cons n ns =>
      cases b with
      | zero => simp [tryC]
      | succ b =>
        have hrest : tryN acc d n us = .next → tryC acc d ns b us ≠ .found p ls := by
          intro hn
          refine ih ns (by simp at hs; omega) d b us ls (fun c hc => hkids c (by simp [hc])) ?_
          intro a n' b' he hp
          obtain ⟨h1, h2⟩ := hlev (n :: a) n' b' (by rw [he]; rfl) hp
          refine ⟨h1, ?_⟩
          rcases h2 with h2 | ⟨c, hc, h3, h4⟩
          · exact .inl h2
          · rcases List.mem_cons.1 hc with rfl | hc
            · left
              intro hl
              obtain ⟨u, rfl⟩ := List.length_eq_one_iff.1 hl
              exact capture_not_next hcap h3 h4 hn
            · exact .inr ⟨c, hc, h3, h4⟩
        have hbelow : ∀ (d' b' : Nat) (vs : List U) (ls : List MT), tryC acc d' n.kids b' vs ≠ .found p ls := by
          intro d' b' vs ls
          have hev := hkids n (by simp)
          refine ih n.kids ?_ d' b' vs ls (fun c hc => hev.kids hc) ?_
          · have : sizeOf n.kids < sizeOf n := by cases n; simp [Node.kids]; omega
            simp at hs; omega
          · intro a n' b'' he hp
            obtain ⟨h1, h2⟩ := hev.top a n' b'' he hp
            exact ⟨h1, .inr h2⟩
        have hnode : tryN acc d n us ≠ .found p ls := by
          have hself := hlev [] n ns rfl
          cases n with
          | mk mx pr seg pat kids =>
            simp only [Node.kids, Node.pat, Node.seg] at hbelow hself
            cases us with
            | nil => simp [tryN]
            | cons u us =>
              unfold tryN
              simp only
              split
              · simp
              · split
                · simp
                · simp
                · rename_i hacc
                  have hmult : seg.kind = .multiple := hmul _ _ hacc
                  split
                  · rename_i q
                    simp only [ne_eq, Res.found.injEq, not_and]
                    intro e
                    exact absurd hmult (hself (by rw [e])).1
                  · refine starLoop_no ?_ _ _
                    intro vs ls
                    split
                    · exact hbelow _ _ _ _
                    · simp
                · rename_i kk hk1 hk2 hk3
                  split
                  · split
                    · rename_i q
                      simp only [ne_eq, Res.found.injEq, not_and]
                      intro e
                      obtain ⟨_, h2⟩ := hself (by rw [e])
                      rcases h2 with h2 | ⟨c, hc, _⟩
                      · exact absurd rfl h2
                      · cases hc
                    · simp
                  · have hif : ∀ l, (if d + 1 < 19 then tryC acc (d + 1) kids (kids.length % 65536) us else .panic) ≠ .found p l := by
                      intro l
                      split
                      · exact hbelow _ _ _ _
                      · simp
                    generalize (if d + 1 < 19 then tryC acc (d + 1) kids (kids.length % 65536) us else .panic) = r at hif
                    cases r with
                    | found q l =>
                      simp only [Res.up, ne_eq, Res.found.injEq, not_and]
                      intro e
                      exact absurd rfl (by rw [e] at hif; exact hif l)
                    | next => simp [Res.up]
                    | stop => simp [Res.up]
                    | abort => simp [Res.up]
                    | panic => simp [Res.up]
        unfold tryC
        split
        · rename_i h; exact hrest h
        · exact hnode

/-- Ways with the same segments lead to the same level. -/
theorem same_level (hl : FoldLaws x.eqFold) {root ns : List Node} {pre : List (Segment × Nat)} (h : Level root pre ns)
    (hap : Every (List.Pairwise fun a b => ¬ Alike2 x ci a.seg b.seg) root) {q : Pattern} :
    ∀ {a c : List (Segment × UInt8)}, Leaf root (a ++ c) q → All2 (fun u v => Alike2 x ci u.1 v.1) a pre → c ≠ [] → Leaf ns c q := by
  induction h with
  | top => intro a c h1 h2 _; cases h2; exact h1
  | @down pre ns n hlev hn ih =>
    intro a c h1 h2 hc
    obtain ⟨a1, a2, rfl, h3, h4⟩ := h2.flip.append_inv_left
    cases h4 with
    | @cons _ k _ t h5 h6 =>
      cases h6
      have := ih (a := a1) (c := k :: c) (by simpa using h1) h3.flip (by simp)
      generalize hg : k :: c = l at this
      cases this with
      | here hm => simp at hg; exact absurd hg.2 hc
      | @down _ mx pr seg pat kids l _ hm hlf =>
        simp only [List.cons.injEq] at hg
        obtain ⟨rfl, rfl⟩ := hg
        have hpw := (hap.level hlev).top
        have he : Node.mk mx pr seg pat kids = n := by
          rcases pairwise_mem hpw hm hn with h | h | h
          · exact h
          · exact absurd h5 h
          · exact absurd (alike2_symm hl h5) h
        subst he
        exact hlf

end Gofre.Path
