import Verif.Proofs.SearchSound
import Verif.Proofs.SortSiblings

/-! # The leaves of the trie after a registration -/

namespace Gofre.Path

theorem findShare_none {x : Ext} {ci : Bool} {s : Segment} : ∀ {kids : List Node}, findShare x ci s kids = none →
    ∀ c ∈ kids, shares x ci s c.seg = false := by
  intro kids
  induction kids with
  | nil => simp
  | cons c cs ih =>
    intro h
    simp only [findShare] at h
    split at h
    · cases h
    · rename_i hs
      intro c' hc'
      rcases List.mem_cons.1 hc' with rfl | hc'
      · simpa using hs
      · exact ih (by simpa using h) c' hc'

theorem findShare_some {x : Ext} {ci : Bool} {s : Segment} : ∀ {kids a b : List Node} {c : Node},
    findShare x ci s kids = some (a, c, b) →
    kids = a ++ c :: b ∧ shares x ci s c.seg = true ∧ ∀ c' ∈ a, shares x ci s c'.seg = false := by
  intro kids
  induction kids with
  | nil => intro a b c h; simp [findShare] at h
  | cons d cs ih =>
    intro a b c h
    simp only [findShare] at h
    split at h
    · rename_i hs
      simp only [Option.some.injEq, Prod.mk.injEq] at h
      obtain ⟨rfl, rfl, rfl⟩ := h
      exact ⟨rfl, hs, by simp⟩
    · rename_i hs
      cases hf : findShare x ci s cs with
      | none => rw [hf] at h; simp at h
      | some r =>
        obtain ⟨a', c', b'⟩ := r
        rw [hf] at h
        simp only [Option.map_some, Option.some.injEq, Prod.mk.injEq] at h
        obtain ⟨rfl, rfl, rfl⟩ := h
        obtain ⟨h1, h2, h3⟩ := ih hf
        refine ⟨by rw [h1]; rfl, h2, ?_⟩
        intro e he
        rcases List.mem_cons.1 he with rfl | he
        · simpa using hs
        · exact h3 e he

/-- The segments and limits of new nodes. -/
def chainPath (p : Pattern) : Nat → List Segment → List (Segment × UInt8)
  | _, [] => []
  | i, s :: ss => (s, maxAt p i) :: chainPath p (i + 1) ss

theorem chainPath_map (p : Pattern) : ∀ (ss : List Segment) (i : Nat), (chainPath p i ss).map (·.1) = ss := by
  intro ss
  induction ss with
  | nil => intro i; rfl
  | cons s ss ih => intro i; simp [chainPath, ih]

theorem chain_eq_mk (p : Pattern) (i : Nat) (s : Segment) (ss : List Segment) :
    ∃ pat kids, chain p i s ss = .mk (maxAt p i) p.priority s pat kids := by
  cases ss <;> exact ⟨_, _, rfl⟩

theorem leaf_chain_iff (p : Pattern) : ∀ (ss : List Segment) (s : Segment) (i : Nat) (l : List (Segment × UInt8)) (q : Pattern),
    Leaf [chain p i s ss] l q ↔ q = p ∧ l = chainPath p i (s :: ss) := by
  intro ss
  induction ss with
  | nil =>
    intro s i l q
    constructor
    · intro h
      cases h with
      | here hm =>
        rw [List.mem_singleton, chain] at hm
        cases hm; exact ⟨rfl, rfl⟩
      | down hm hl =>
        rw [List.mem_singleton, chain] at hm
        cases hm
        cases hl with
        | here h => cases h
        | down h _ => cases h
    · rintro ⟨rfl, rfl⟩
      exact .here (pr := q.priority) (kids := []) (List.mem_singleton.2 rfl)
  | cons s' ss ih =>
    intro s i l q
    constructor
    · intro h
      cases h with
      | here hm =>
        rw [List.mem_singleton, chain] at hm
        cases hm
      | down hm hl =>
        rw [List.mem_singleton, chain] at hm
        cases hm
        obtain ⟨rfl, rfl⟩ := (ih s' (i + 1) _ q).1 hl
        exact ⟨rfl, rfl⟩
    · rintro ⟨rfl, rfl⟩
      exact .down (pr := q.priority) (pat := none) (kids := [chain q (i + 1) s' ss]) (List.mem_singleton.2 rfl)
        ((ih s' (i + 1) _ q).2 ⟨rfl, rfl⟩)

theorem Leaf.append {ns ms : List Node} {l : List (Segment × UInt8)} {q : Pattern} :
    Leaf (ns ++ ms) l q ↔ Leaf ns l q ∨ Leaf ms l q := by
  constructor
  · intro h
    cases h with
    | here hm =>
      rcases List.mem_append.1 hm with h | h
      · exact .inl (.here h)
      · exact .inr (.here h)
    | down hm hl =>
      rcases List.mem_append.1 hm with h | h
      · exact .inl (.down h hl)
      · exact .inr (.down h hl)
  · rintro (h | h)
    · exact h.mono (by intro n hn; simp [hn])
    · exact h.mono (by intro n hn; simp [hn])

theorem Leaf.cons_split {n : Node} {ns : List Node} {l : List (Segment × UInt8)} {q : Pattern} :
    Leaf (n :: ns) l q ↔ Leaf [n] l q ∨ Leaf ns l q := Leaf.append (ns := [n])

theorem Leaf.perm {ns ms : List Node} (h : ns.Perm ms) {l : List (Segment × UInt8)} {q : Pattern} : Leaf ns l q ↔ Leaf ms l q :=
  ⟨fun hl => hl.mono fun _ hn => h.mem_iff.1 hn, fun hl => hl.mono fun _ hn => h.mem_iff.2 hn⟩

/-- The same nodes with limits at least as large. -/
abbrev Grown : List (Segment × UInt8) → List (Segment × UInt8) → Prop :=
  All2 fun new old => new.1 = old.1 ∧ old.2.toNat ≤ new.2.toNat

theorem Grown.refl (l : List (Segment × UInt8)) : Grown l l := by
  induction l with
  | nil => exact .nil
  | cons a l ih => exact .cons ⟨rfl, Nat.le_refl _⟩ ih

/-- The node at a position of the new pattern: its own segment or one it shares. -/
abbrev OnNode (x : Ext) (ci : Bool) : List (Segment × UInt8) → List Segment → Prop :=
  All2 fun c s => c.1 = s ∨ shares x ci s c.1 = true

theorem grow_le (mx y : UInt8) : mx.toNat ≤ (if mx < y then y else mx).toNat ∧ y.toNat ≤ (if mx < y then y else mx).toNat := by
  by_cases h : mx < y
  · rw [if_pos h]; have := UInt8.lt_iff_toNat_lt.1 h; omega
  · rw [if_neg h]; have : ¬ mx.toNat < y.toNat := fun e => h (UInt8.lt_iff_toNat_lt.2 e); omega

/-- The three ways `insert` can go at one level. -/
theorem insert_cases (x : Ext) (ci : Bool) (srt : List Node → List Node) (p : Pattern) (i : Nat) (s : Segment)
    (ss : List Segment) (kids : List Node) :
    ((∀ c ∈ kids, shares x ci s c.seg = false) ∧ insert x ci srt p i s ss kids = (srt (kids ++ [chain p i s ss]), false)) ∨
    ∃ a b mx pr seg pat ks, kids = a ++ .mk mx pr seg pat ks :: b ∧ shares x ci s seg = true ∧
      (∀ c ∈ a, shares x ci s c.seg = false) ∧
      ((ss = [] ∧ ∃ q, pat = some q ∧ insert x ci srt p i s ss kids =
          (a ++ .mk (if mx < maxAt p i then maxAt p i else mx) pr seg (some q) ks :: b, true)) ∨
       (ss = [] ∧ pat = none ∧ insert x ci srt p i s ss kids =
          (a ++ .mk (if mx < maxAt p i then maxAt p i else mx) pr seg (some p) ks :: b, false)) ∨
       ∃ s' ss', ss = s' :: ss' ∧ insert x ci srt p i s ss kids =
          (a ++ .mk (if mx < maxAt p i then maxAt p i else mx) pr seg pat (insert x ci srt p (i + 1) s' ss' ks).1 :: b,
            (insert x ci srt p (i + 1) s' ss' ks).2)) := by
  cases hf : findShare x ci s kids with
  | none =>
    left
    refine ⟨findShare_none hf, ?_⟩
    unfold insert
    rw [hf]
  | some r =>
    obtain ⟨a, ⟨mx, pr, seg, pat, ks⟩, b⟩ := r
    right
    obtain ⟨h1, h2, h3⟩ := findShare_some hf
    refine ⟨a, b, mx, pr, seg, pat, ks, h1, h2, h3, ?_⟩
    cases ss with
    | nil =>
      cases pat with
      | some q => exact .inl ⟨rfl, q, rfl, by unfold insert; rw [hf]⟩
      | none => exact .inr (.inl ⟨rfl, rfl, by unfold insert; rw [hf]⟩)
    | cons s' ss' =>
      refine .inr (.inr ⟨s', ss', rfl, ?_⟩)
      conv => lhs; unfold insert
      rw [hf]

variable {x : Ext} {ci : Bool} {srt : List Node → List Node} {p : Pattern}

/-- Every leaf after a registration was there before or belongs to the new pattern. -/
theorem insert_sound (hp : ∀ l, (srt l).Perm l) : ∀ (ss : List Segment) (i : Nat) (s : Segment) (kids : List Node)
    (l : List (Segment × UInt8)) (q : Pattern), Leaf (insert x ci srt p i s ss kids).1 l q →
    (∃ l0, Leaf kids l0 q ∧ Grown l l0) ∨
    (q = p ∧ (insert x ci srt p i s ss kids).2 = false ∧ OnNode x ci l (s :: ss)) := by
  intro ss
  induction ss with
  | nil =>
    intro i s kids l q h
    rcases insert_cases x ci srt p i s [] kids with ⟨_, he⟩ | ⟨a, b, mx, pr, seg, pat, ks, hk, hs, _, hc⟩
    · rw [he] at h ⊢
      rcases Leaf.append.1 ((Leaf.perm (hp _)).1 h) with h | h
      · exact .inl ⟨l, h, .refl l⟩
      · obtain ⟨rfl, rfl⟩ := (leaf_chain_iff p _ _ _ _ _).1 h
        exact .inr ⟨rfl, rfl, .cons (.inl rfl) .nil⟩
    · subst hk
      rcases hc with ⟨_, q', rfl, he⟩ | ⟨_, rfl, he⟩ | ⟨_, _, h0, _⟩
      · rw [he] at h
        left
        rcases Leaf.append.1 h with h | h
        · exact ⟨l, Leaf.append.2 (.inl h), .refl l⟩
        · rcases Leaf.cons_split.1 h with h | h
          · cases h with
            | here hm =>
              rw [List.mem_singleton] at hm
              cases hm
              exact ⟨_, Leaf.append.2 (.inr (.here List.mem_cons_self)), .cons ⟨rfl, (grow_le _ _).1⟩ .nil⟩
            | down hm hl =>
              rw [List.mem_singleton] at hm
              cases hm
              exact ⟨_, Leaf.append.2 (.inr (.down List.mem_cons_self hl)), .cons ⟨rfl, (grow_le _ _).1⟩ (Grown.refl _)⟩
          · exact ⟨l, Leaf.append.2 (.inr (Leaf.cons_split.2 (.inr h))), .refl l⟩
      · rw [he] at h ⊢
        rcases Leaf.append.1 h with h | h
        · exact .inl ⟨l, Leaf.append.2 (.inl h), .refl l⟩
        · rcases Leaf.cons_split.1 h with h | h
          · cases h with
            | here hm =>
              rw [List.mem_singleton] at hm
              cases hm
              exact .inr ⟨rfl, rfl, .cons (.inr hs) .nil⟩
            | down hm hl =>
              rw [List.mem_singleton] at hm
              cases hm
              exact .inl ⟨_, Leaf.append.2 (.inr (.down List.mem_cons_self hl)), .cons ⟨rfl, (grow_le _ _).1⟩ (Grown.refl _)⟩
          · exact .inl ⟨l, Leaf.append.2 (.inr (Leaf.cons_split.2 (.inr h))), .refl l⟩
      · cases h0
  | cons s1 ss1 ih =>
    intro i s kids l q h
    rcases insert_cases x ci srt p i s (s1 :: ss1) kids with ⟨_, he⟩ | ⟨a, b, mx, pr, seg, pat, ks, hk, hs, _, hc⟩
    · rw [he] at h ⊢
      rcases Leaf.append.1 ((Leaf.perm (hp _)).1 h) with h | h
      · exact .inl ⟨l, h, .refl l⟩
      · obtain ⟨rfl, rfl⟩ := (leaf_chain_iff p _ _ _ _ _).1 h
        refine .inr ⟨rfl, rfl, ?_⟩
        have : ∀ (ts : List Segment) (j : Nat), OnNode x ci (chainPath q j ts) ts := by
          intro ts
          induction ts with
          | nil => intro j; exact .nil
          | cons t ts ih => intro j; exact .cons (.inl rfl) (ih _)
        exact this _ _
    · subst hk
      rcases hc with ⟨h0, _⟩ | ⟨h0, _⟩ | ⟨s', ss', h0, he⟩
      · cases h0
      · cases h0
      · cases h0
        rw [he] at h ⊢
        rcases Leaf.append.1 h with h | h
        · exact .inl ⟨l, Leaf.append.2 (.inl h), .refl l⟩
        · rcases Leaf.cons_split.1 h with h | h
          · cases h with
            | here hm =>
              rw [List.mem_singleton] at hm
              cases hm
              exact .inl ⟨_, Leaf.append.2 (.inr (.here List.mem_cons_self)), .cons ⟨rfl, (grow_le _ _).1⟩ .nil⟩
            | down hm hl =>
              rw [List.mem_singleton] at hm
              cases hm
              rcases ih _ _ _ _ _ hl with ⟨l0, h1, h2⟩ | ⟨h1, h2, h3⟩
              · exact .inl ⟨_, Leaf.append.2 (.inr (.down List.mem_cons_self h1)), .cons ⟨rfl, (grow_le _ _).1⟩ h2⟩
              · exact .inr ⟨h1, h2, .cons (.inr hs) h3⟩
          · exact .inl ⟨l, Leaf.append.2 (.inr (Leaf.cons_split.2 (.inr h))), .refl l⟩

/-- Leaves are kept by a registration. -/
theorem insert_keeps (hp : ∀ l, (srt l).Perm l) : ∀ (ss : List Segment) (i : Nat) (s : Segment) (kids : List Node)
    (l : List (Segment × UInt8)) (q : Pattern), Leaf kids l q → ∃ l', Leaf (insert x ci srt p i s ss kids).1 l' q ∧ Grown l' l := by
  intro ss
  induction ss with
  | nil =>
    intro i s kids l q h
    rcases insert_cases x ci srt p i s [] kids with ⟨_, he⟩ | ⟨a, b, mx, pr, seg, pat, ks, hk, hs, _, hc⟩
    · rw [he]
      exact ⟨l, (Leaf.perm (hp _)).2 (Leaf.append.2 (.inl h)), .refl l⟩
    · subst hk
      rcases hc with ⟨_, q', rfl, he⟩ | ⟨_, rfl, he⟩ | ⟨_, _, h0, _⟩
      · rw [he]
        rcases Leaf.append.1 h with h | h
        · exact ⟨l, Leaf.append.2 (.inl h), .refl l⟩
        · rcases Leaf.cons_split.1 h with h | h
          · cases h with
            | here hm =>
              rw [List.mem_singleton] at hm
              cases hm
              exact ⟨_, Leaf.append.2 (.inr (.here List.mem_cons_self)), .cons ⟨rfl, (grow_le _ _).1⟩ .nil⟩
            | down hm hl =>
              rw [List.mem_singleton] at hm
              cases hm
              exact ⟨_, Leaf.append.2 (.inr (.down List.mem_cons_self hl)), .cons ⟨rfl, (grow_le _ _).1⟩ (Grown.refl _)⟩
          · exact ⟨l, Leaf.append.2 (.inr (Leaf.cons_split.2 (.inr h))), .refl l⟩
      · rw [he]
        rcases Leaf.append.1 h with h | h
        · exact ⟨l, Leaf.append.2 (.inl h), .refl l⟩
        · rcases Leaf.cons_split.1 h with h | h
          · cases h with
            | here hm =>
              rw [List.mem_singleton] at hm
              cases hm
            | down hm hl =>
              rw [List.mem_singleton] at hm
              cases hm
              exact ⟨_, Leaf.append.2 (.inr (.down List.mem_cons_self hl)), .cons ⟨rfl, (grow_le _ _).1⟩ (Grown.refl _)⟩
          · exact ⟨l, Leaf.append.2 (.inr (Leaf.cons_split.2 (.inr h))), .refl l⟩
      · cases h0
  | cons s1 ss1 ih =>
    intro i s kids l q h
    rcases insert_cases x ci srt p i s (s1 :: ss1) kids with ⟨_, he⟩ | ⟨a, b, mx, pr, seg, pat, ks, hk, hs, _, hc⟩
    · rw [he]
      exact ⟨l, (Leaf.perm (hp _)).2 (Leaf.append.2 (.inl h)), .refl l⟩
    · subst hk
      rcases hc with ⟨h0, _⟩ | ⟨h0, _⟩ | ⟨s', ss', h0, he⟩
      · cases h0
      · cases h0
      · cases h0
        rw [he]
        rcases Leaf.append.1 h with h | h
        · exact ⟨l, Leaf.append.2 (.inl h), .refl l⟩
        · rcases Leaf.cons_split.1 h with h | h
          · cases h with
            | here hm =>
              rw [List.mem_singleton] at hm
              cases hm
              exact ⟨_, Leaf.append.2 (.inr (.here List.mem_cons_self)), .cons ⟨rfl, (grow_le _ _).1⟩ .nil⟩
            | down hm hl =>
              rw [List.mem_singleton] at hm
              cases hm
              obtain ⟨l', h1, h2⟩ := ih (i + 1) s1 _ _ _ hl
              exact ⟨_, Leaf.append.2 (.inr (.down List.mem_cons_self h1)), .cons ⟨rfl, (grow_le _ _).1⟩ h2⟩
          · exact ⟨l, Leaf.append.2 (.inr (Leaf.cons_split.2 (.inr h))), .refl l⟩

/-- The new pattern gets a leaf whose limits are large enough. -/
theorem insert_adds (hp : ∀ l, (srt l).Perm l) : ∀ (ss : List Segment) (i : Nat) (s : Segment) (kids : List Node),
    (insert x ci srt p i s ss kids).2 = false → ∃ l, Leaf (insert x ci srt p i s ss kids).1 l p ∧
      All2 (fun c n => (c.1 = n.1 ∨ shares x ci n.1 c.1 = true) ∧ n.2.toNat ≤ c.2.toNat) l (chainPath p i (s :: ss)) := by
  have hself : ∀ (l : List (Segment × UInt8)),
      All2 (fun c n => (c.1 = n.1 ∨ shares x ci n.1 c.1 = true) ∧ n.2.toNat ≤ c.2.toNat) l l := by
    intro l
    induction l with
    | nil => exact .nil
    | cons a l ih => exact .cons ⟨.inl rfl, Nat.le_refl _⟩ ih
  intro ss
  induction ss with
  | nil =>
    intro i s kids h
    rcases insert_cases x ci srt p i s [] kids with ⟨_, he⟩ | ⟨a, b, mx, pr, seg, pat, ks, hk, hs, _, hc⟩
    · rw [he]
      exact ⟨_, (Leaf.perm (hp _)).2 (Leaf.append.2 (.inr ((leaf_chain_iff p _ _ _ _ _).2 ⟨rfl, rfl⟩))), hself _⟩
    · subst hk
      rcases hc with ⟨_, q', rfl, he⟩ | ⟨_, rfl, he⟩ | ⟨_, _, h0, _⟩
      · rw [he] at h; cases h
      · rw [he]
        exact ⟨_, Leaf.append.2 (.inr (.here List.mem_cons_self)), .cons ⟨.inr hs, (grow_le _ _).2⟩ .nil⟩
      · cases h0
  | cons s1 ss1 ih =>
    intro i s kids h
    rcases insert_cases x ci srt p i s (s1 :: ss1) kids with ⟨_, he⟩ | ⟨a, b, mx, pr, seg, pat, ks, hk, hs, _, hc⟩
    · rw [he]
      exact ⟨_, (Leaf.perm (hp _)).2 (Leaf.append.2 (.inr ((leaf_chain_iff p _ _ _ _ _).2 ⟨rfl, rfl⟩))), hself _⟩
    · subst hk
      rcases hc with ⟨h0, _⟩ | ⟨h0, _⟩ | ⟨s', ss', h0, he⟩
      · cases h0
      · cases h0
      · cases h0
        rw [he] at h ⊢
        obtain ⟨l, h1, h2⟩ := ih _ _ _ h
        exact ⟨_, Leaf.append.2 (.inr (.down List.mem_cons_self h1)), .cons ⟨.inr hs, (grow_le _ _).2⟩ h2⟩

/-- A refused pattern shares all its nodes with a registered one. -/
theorem insert_err : ∀ (ss : List Segment) (i : Nat) (s : Segment) (kids : List Node),
    (insert x ci srt p i s ss kids).2 = true → ∃ l q, Leaf kids l q ∧ All2 (fun c s => shares x ci s c.1 = true) l (s :: ss) := by
  intro ss
  induction ss with
  | nil =>
    intro i s kids h
    rcases insert_cases x ci srt p i s [] kids with ⟨_, he⟩ | ⟨a, b, mx, pr, seg, pat, ks, hk, hs, _, hc⟩
    · rw [he] at h; cases h
    · subst hk
      rcases hc with ⟨_, q', rfl, he⟩ | ⟨_, rfl, he⟩ | ⟨_, _, h0, _⟩
      · exact ⟨_, q', Leaf.append.2 (.inr (.here List.mem_cons_self)), .cons hs .nil⟩
      · rw [he] at h; cases h
      · cases h0
  | cons s1 ss1 ih =>
    intro i s kids h
    rcases insert_cases x ci srt p i s (s1 :: ss1) kids with ⟨_, he⟩ | ⟨a, b, mx, pr, seg, pat, ks, hk, hs, _, hc⟩
    · rw [he] at h; cases h
    · subst hk
      rcases hc with ⟨h0, _⟩ | ⟨h0, _⟩ | ⟨s', ss', h0, he⟩
      · cases h0
      · cases h0
      · cases h0
        rw [he] at h
        obtain ⟨l, q, h1, h2⟩ := ih _ _ _ h
        exact ⟨_, q, Leaf.append.2 (.inr (.down List.mem_cons_self h1)), .cons hs h2⟩

end Gofre.Path
