import Verif.Proofs.Complete

/-! # Described requests are found although patterns have `**` in the middle -/

namespace Gofre.Path
open Gofre.Spec

/-! ### The limits along a way -/

/-- A way along the nodes of a pattern, with limits at least as large as needed for it. -/
abbrev Along (x : Ext) (ci : Bool) : List (Segment × UInt8) → List (Segment × UInt8) → Prop :=
  All2 fun c n => (c.1 = n.1 ∨ shares x ci n.1 c.1 = true) ∧ n.2.toNat ≤ c.2.toNat

theorem Along.refl {x : Ext} {ci : Bool} (l : List (Segment × UInt8)) : Along x ci l l := by
  induction l with
  | nil => exact .nil
  | cons a l ih => exact .cons ⟨.inl rfl, Nat.le_refl _⟩ ih

section
variable {x : Ext} {ci : Bool} {srt : List Node → List Node} {p : Pattern}

/-- Every leaf after a registration was there before or belongs to the new pattern and has its limits. -/
theorem insert_along (hp : ∀ l, (srt l).Perm l) : ∀ (ss : List Segment) (i : Nat) (s : Segment) (kids : List Node)
    (l : List (Segment × UInt8)) (q : Pattern), Leaf (insert x ci srt p i s ss kids).1 l q →
    (∃ l0, Leaf kids l0 q ∧ Grown l l0) ∨
    (q = p ∧ (insert x ci srt p i s ss kids).2 = false ∧ Along x ci l (chainPath p i (s :: ss))) := by
  intro ss
  induction ss with
  | nil =>
    intro i s kids l q h
    rcases insert_cases x ci srt p i s [] kids with ⟨_, he⟩ | ⟨a, b, mx, pr, seg, pat, ks, hk, hs, _, hc⟩
    · rw [he] at h ⊢
      rcases Leaf.append.1 ((Leaf.perm (hp _)).1 h) with h | h
      · exact .inl ⟨l, h, .refl l⟩
      · obtain ⟨rfl, rfl⟩ := (leaf_chain_iff p _ _ _ _ _).1 h
        exact .inr ⟨rfl, rfl, Along.refl _⟩
    · subst hk
      rcases hc with ⟨_, q', rfl, he⟩ | ⟨_, rfl, he⟩ | ⟨_, _, h0, _⟩
      · rw [he] at h
        left
        rcases Leaf.append.1 h with h | h
        · exact ⟨l, Leaf.append.2 (.inl h), .refl l⟩
        · rcases Leaf.cons_split.1 h with h | h
          · cases h with
            | here hm =>
              rw [List.mem_singleton] at hm
              cases hm
              exact ⟨_, Leaf.append.2 (.inr (.here List.mem_cons_self)), .cons ⟨rfl, (grow_le _ _).1⟩ .nil⟩
            | down hm hl =>
              rw [List.mem_singleton] at hm
              cases hm
              exact ⟨_, Leaf.append.2 (.inr (.down List.mem_cons_self hl)), .cons ⟨rfl, (grow_le _ _).1⟩ (Grown.refl _)⟩
          · exact ⟨l, Leaf.append.2 (.inr (Leaf.cons_split.2 (.inr h))), .refl l⟩
      · rw [he] at h ⊢
        rcases Leaf.append.1 h with h | h
        · exact .inl ⟨l, Leaf.append.2 (.inl h), .refl l⟩
        · rcases Leaf.cons_split.1 h with h | h
          · cases h with
            | here hm =>
              rw [List.mem_singleton] at hm
              cases hm
              exact .inr ⟨rfl, rfl, .cons ⟨.inr hs, (grow_le _ _).2⟩ .nil⟩
            | down hm hl =>
              rw [List.mem_singleton] at hm
              cases hm
              exact .inl ⟨_, Leaf.append.2 (.inr (.down List.mem_cons_self hl)), .cons ⟨rfl, (grow_le _ _).1⟩ (Grown.refl _)⟩
          · exact .inl ⟨l, Leaf.append.2 (.inr (Leaf.cons_split.2 (.inr h))), .refl l⟩
      · cases h0
  | cons s1 ss1 ih =>
    intro i s kids l q h
    rcases insert_cases x ci srt p i s (s1 :: ss1) kids with ⟨_, he⟩ | ⟨a, b, mx, pr, seg, pat, ks, hk, hs, _, hc⟩
    · rw [he] at h ⊢
      rcases Leaf.append.1 ((Leaf.perm (hp _)).1 h) with h | h
      · exact .inl ⟨l, h, .refl l⟩
      · obtain ⟨rfl, rfl⟩ := (leaf_chain_iff p _ _ _ _ _).1 h
        exact .inr ⟨rfl, rfl, Along.refl _⟩
    · subst hk
      rcases hc with ⟨h0, _⟩ | ⟨h0, _⟩ | ⟨s', ss', h0, he⟩
      · cases h0
      · cases h0
      · cases h0
        rw [he] at h ⊢
        rcases Leaf.append.1 h with h | h
        · exact .inl ⟨l, Leaf.append.2 (.inl h), .refl l⟩
        · rcases Leaf.cons_split.1 h with h | h
          · cases h with
            | here hm =>
              rw [List.mem_singleton] at hm
              cases hm
              exact .inl ⟨_, Leaf.append.2 (.inr (.here List.mem_cons_self)), .cons ⟨rfl, (grow_le _ _).1⟩ .nil⟩
            | down hm hl =>
              rw [List.mem_singleton] at hm
              cases hm
              rcases ih _ _ _ _ _ hl with ⟨l0, h1, h2⟩ | ⟨h1, h2, h3⟩
              · exact .inl ⟨_, Leaf.append.2 (.inr (.down List.mem_cons_self h1)), .cons ⟨rfl, (grow_le _ _).1⟩ h2⟩
              · exact .inr ⟨h1, h2, .cons ⟨.inr hs, (grow_le _ _).2⟩ h3⟩
          · exact .inl ⟨l, Leaf.append.2 (.inr (Leaf.cons_split.2 (.inr h))), .refl l⟩

/-- The leaves of a trie have the limits of their patterns. -/
theorem registered_along (hp : ∀ l, (srt l).Perm l) {ps : List Pattern} {m : Matcher} (h : Registered x ci srt ps m) :
    ∀ l q, Leaf m.kids l q → Along x ci l (chainPath q 0 q.segments) := by
  have step : ∀ {m m' : Matcher} {p : Pattern} {r : Bool}, addPattern x ci srt m p = (m', r) →
      (∀ l q, Leaf m.kids l q → Along x ci l (chainPath q 0 q.segments)) →
      ∀ l q, Leaf m'.kids l q → Along x ci l (chainPath q 0 q.segments) := by
    intro m m' p r ha h l q hl
    unfold addPattern at ha
    cases hs : p.segments with
    | nil =>
      rw [hs] at ha
      cases hr : m.root with
      | some q => rw [hr] at ha; simp only [Prod.mk.injEq] at ha; rw [← ha.1] at hl; exact h l _ hl
      | none => rw [hr] at ha; simp only [Prod.mk.injEq] at ha; rw [← ha.1] at hl; exact h l _ hl
    | cons s ss =>
      rw [hs] at ha
      simp only [Prod.mk.injEq] at ha
      rw [← ha.1] at hl
      rcases insert_along hp _ _ _ _ _ _ hl with ⟨l0, h1, h2⟩ | ⟨rfl, _, h2⟩
      · exact on_grown h2 (h l0 q h1)
      · rw [hs]; exact h2
  induction h with
  | new => intro l q hl; cases hl <;> contradiction
  | added raw a _ _ ha ih => exact step ha ih
  | refused raw a _ _ ha ih => exact step ha ih

end

/-! ### The search -/

variable {U : Type} {acc : Segment → U → Option MT}

/-- The nodes of a way accept the request, `**` anywhere standing for any number of segments (at
least one at the end), within the length limits. -/
def Spans (acc : Segment → U → Option MT) : List (Segment × UInt8) → List U → Prop
  | [], us => us = []
  | (s, mx) :: l, us => us ≠ [] ∧ us.length ≤ mx.toNat ∧ s.kind ≠ .unknown ∧
      (s.kind = .multiple → l ≠ [] → ∃ vs ws, us = vs ++ ws ∧ Spans acc l ws) ∧
      (s.kind ≠ .multiple → ∃ u vs, us = u :: vs ∧ acc s u = some s.kind ∧ Spans acc l vs)

/-- Segments laid over a part of the request; every `**` may stand for nothing. -/
def Lies (acc : Segment → U → Option MT) : List Segment → List U → Prop
  | [], us => us = []
  | s :: l, us => s.kind ≠ .unknown ∧
      (s.kind = .multiple → ∃ vs ws, us = vs ++ ws ∧ Lies acc l ws) ∧
      (s.kind ≠ .multiple → ∃ u vs, us = u :: vs ∧ acc s u = some s.kind ∧ Lies acc l vs)

/-- A way down to a `**` with children. -/
inductive ToStar : List Node → List Segment → List Node → Prop
  | here {ns mx pr seg pat kids} : Node.mk mx pr seg pat kids ∈ ns → seg.kind = .multiple → kids ≠ [] → ToStar ns [] kids
  | down {ns mx pr seg pat kids l ks} : Node.mk mx pr seg pat kids ∈ ns → ToStar kids l ks → ToStar ns (seg :: l) ks

theorem ToStar.mono {ns ms : List Node} (h : ∀ n ∈ ns, n ∈ ms) {l : List Segment} {ks : List Node} (hs : ToStar ns l ks) : ToStar ms l ks := by
  cases hs with
  | here hm h1 h2 => exact .here (h _ hm) h1 h2
  | down hm hl => exact .down (h _ hm) hl

/-- A way down to a node without pattern other than `**`. -/
inductive Inner : List Node → List Segment → Prop
  | here {ns mx pr seg kids} : Node.mk mx pr seg none kids ∈ ns → seg.kind ≠ .multiple → Inner ns [seg]
  | down {ns mx pr seg pat kids l} : Node.mk mx pr seg pat kids ∈ ns → Inner kids l → Inner ns (seg :: l)

theorem Inner.mono {ns ms : List Node} (h : ∀ n ∈ ns, n ∈ ms) {l : List Segment} (hs : Inner ns l) : Inner ms l := by
  cases hs with
  | here hm h1 => exact .here (h _ hm) h1
  | down hm hl => exact .down (h _ hm) hl

/-- Some pattern below the nodes accepts the request. -/
def Taken (acc : Segment → U → Option MT) (ns : List Node) (us : List U) : Prop := ∃ l q, Leaf ns l q ∧ Spans acc l us

theorem taken_ne {ns : List Node} {us : List U} (h : Taken acc ns us) : us ≠ [] := by
  obtain ⟨l, q, hl, hs⟩ := h
  obtain ⟨n, _, t, rfl, _⟩ := leaf_head hl
  exact hs.1

/-- Found, or not there. -/
def Right (acc : Segment → U → Option MT) (r : Res) (ns : List Node) (us : List U) : Prop :=
  (∃ p ls l, r = .found p ls ∧ Leaf ns l p) ∨ (r = .stop ∧ ¬ Taken acc ns us)

theorem anyAcc_taken {ns : List Node} {u : U} {us : List U} (hstar : ∀ s, s.kind = .multiple → acc s u ≠ some .unknown)
    (h : Taken acc ns (u :: us)) : anyAcc acc u ns ≠ some false := by
  obtain ⟨l, q, hl, hs⟩ := h
  obtain ⟨n, hn, t, rfl, _⟩ := leaf_head hl
  have ha : acc n.seg u ≠ some .unknown := by
    by_cases hk : n.seg.kind = .multiple
    · exact hstar _ hk
    · obtain ⟨v, vs, h1, h2, _⟩ := hs.2.2.2.2 hk
      cases h1
      rw [h2]
      exact fun e => hs.2.2.1 (Option.some.inj e)
  clear hl hs
  induction ns with
  | nil => cases hn
  | cons c ns ih =>
    simp only [anyAcc]
    rcases List.mem_cons.1 hn with rfl | hn
    · split
      · simp
      · rename_i h; exact absurd h ha
      · simp
    · split
      · simp
      · exact ih hn
      · simp

theorem starLoop_right {any : U → Option Bool} {f : List U → Res} {ns : List Node} : ∀ {us : List U},
    (∃ vs ws, us = vs ++ ws ∧ Taken acc ns ws) →
    (∀ vs u ws, us = vs ++ u :: ws → any u ≠ none) →
    (∀ vs u ws, us = vs ++ u :: ws → any u = some false → ¬ Taken acc ns (u :: ws)) →
    (∀ vs u ws, us = vs ++ u :: ws → any u = some true → Right acc (f (u :: ws)) ns (u :: ws)) →
    ∃ p ls l, starLoop any f us = .found p ls ∧ Leaf ns l p := by
  intro us
  induction us with
  | nil =>
    rintro ⟨vs, ws, h, ht⟩
    have : ws = [] := by
      have := congrArg List.length h
      simp at this
      exact List.eq_nil_of_length_eq_zero (by omega)
    exact absurd this (taken_ne ht)
  | cons u us ih =>
    intro h1 h2 h3 h4
    have hgo : ¬ Taken acc ns (u :: us) → ∃ p ls l, (starLoop any f us).cons .multiple = .found p ls ∧ Leaf ns l p := by
      intro hn
      obtain ⟨p, ls, l, h5, h6⟩ := ih (by
        obtain ⟨vs, ws, h, ht⟩ := h1
        cases vs with
        | nil => simp at h; subst h; exact absurd ht hn
        | cons v vs => simp at h; exact ⟨vs, ws, h.2, ht⟩)
        (fun vs v ws e => h2 (u :: vs) v ws (by rw [e]; rfl)) (fun vs v ws e => h3 (u :: vs) v ws (by rw [e]; rfl))
        (fun vs v ws e => h4 (u :: vs) v ws (by rw [e]; rfl))
      exact ⟨p, _, l, by rw [h5]; rfl, h6⟩
    cases ha : any u with
    | none => exact absurd ha (h2 [] u us rfl)
    | some b =>
      cases b with
      | false => simp only [starLoop, ha]; exact hgo (h3 [] u us rfl ha)
      | true =>
        rw [starLoop_true ha]
        rcases h4 [] u us rfl ha with ⟨p, ls, l, h5, h6⟩ | ⟨h5, h6⟩
        · exact ⟨p, ls, l, by rw [h5]; rfl, h6⟩
        · rw [h5]; exact hgo h6

theorem tryC_right (hkind : ∀ s u k, acc s u = some k → k = .unknown ∨ k = s.kind)
    (hstar : ∀ s u, s.kind = .multiple → acc s u = some .multiple) :
    ∀ (n : Nat) (ns : List Node), sizeOf ns ≤ n → ∀ (d b : Nat) (us : List U),
      Every (fun ns => ns.length < 65536) ns →
      Every (fun ns => ∀ n ∈ ns, n.pat.isSome ∨ n.kids ≠ []) ns →
      (∀ s, Has ns s → ∀ u ∈ us, acc s u ≠ none) →
      (∀ l, Inner ns l → ¬ Lies acc l us) →
      (∀ l ks vs ws, ToStar ns l ks → us = vs ++ ws → ws ≠ [] → Lies acc l vs → ∃ vs' ws', ws = vs' ++ ws' ∧ Taken acc ks ws') →
      (∀ l, Thru ns l → d + l.length ≤ 18 ∨ (us.length + d ≤ 19 ∧ ∀ c ∈ l, c.1.kind ≠ .multiple)) →
      us ≠ [] → ns.length ≤ b →
      Right acc (tryC acc d ns b us) ns us := by
  intro n
  induction n with
  | zero => intro ns h; cases ns <;> simp at h
  | succ n ih =>
    intro ns hn d b us hfew hlive hacc hmid hto hthru hne hb
    match ns, b, us with
    | [], _, _ => exact .inr ⟨by simp [tryC], fun ⟨l, q, h, _⟩ => by cases h <;> contradiction⟩
    | _ :: _, 0, _ => simp at hb
    | _ :: _, _ + 1, [] => exact absurd rfl hne
    | .mk mx pr seg pat kids :: rest, b + 1, u :: us =>
      have htl : ∀ {P : List Node → Prop}, (∀ a l, P (a :: l) → P l) → ∀ {a l}, Every P (a :: l) → Every P l :=
        fun hP _ _ h => .mk (hP _ _ h.top) fun m hm => h.kids (by simp [hm])
      have hrest := ih rest (by simp at hn; omega) d b (u :: us) (htl (fun a l h => by simp at h; omega) hfew)
        (htl (fun a l h m hm => h m (by simp [hm])) hlive)
        (fun s hs => hacc s (hs.mono (by intro n hn; simp [hn]))) (fun l hl => hmid l (hl.mono (by intro n hn; simp [hn])))
        (fun l ks vs ws hl => hto l ks vs ws (hl.mono (by intro n hn; simp [hn])))
        (fun l hl => hthru l (hl.mono (by intro n hn; simp [hn]))) hne (by simpa using hb)
      have hfail : tryN acc d (.mk mx pr seg pat kids) (u :: us) = .next → ¬ Taken acc [.mk mx pr seg pat kids] (u :: us) →
          Right acc (tryC acc d (.mk mx pr seg pat kids :: rest) (b + 1) (u :: us)) (.mk mx pr seg pat kids :: rest) (u :: us) := by
        intro h1 h2
        rw [tryC, h1]
        show Right acc (tryC acc d rest b (u :: us)) _ _
        rcases hrest with ⟨p, ls, l, h3, h4⟩ | ⟨h3, h4⟩
        · exact .inl ⟨p, ls, l, h3, h4.mono (by intro n hn; simp [hn])⟩
        · refine .inr ⟨h3, ?_⟩
          rintro ⟨l, q, hl, hc⟩
          rcases Leaf.cons_split.1 hl with h | h
          · exact h2 ⟨l, q, h, hc⟩
          · exact h4 ⟨l, q, h, hc⟩
      have hsucc : ∀ p ls l, tryN acc d (.mk mx pr seg pat kids) (u :: us) = .found p ls → Leaf [.mk mx pr seg pat kids] l p →
          Right acc (tryC acc d (.mk mx pr seg pat kids :: rest) (b + 1) (u :: us)) (.mk mx pr seg pat kids :: rest) (u :: us) := by
        intro p ls l h1 h2
        rw [tryC, h1]
        exact .inl ⟨p, ls, l, rfl, Leaf.cons_split.2 (.inl h2)⟩
      rw [tryN_cons] at hfail hsucc
      have hself : Taken acc [.mk mx pr seg pat kids] (u :: us) → us.length + 1 ≤ mx.toNat ∧ seg.kind ≠ .unknown ∧
          (seg.kind ≠ .multiple → acc seg u = some seg.kind ∧ ((us = [] ∧ pat.isSome) ∨ Taken acc kids us)) := by
        rintro ⟨l, q, h, hc⟩
        cases h with
        | here hm =>
          rw [List.mem_singleton] at hm; cases hm
          refine ⟨by simpa using hc.2.1, hc.2.2.1, fun hk => ?_⟩
          obtain ⟨v, vs, h1, h2, h3⟩ := hc.2.2.2.2 hk
          cases h1
          exact ⟨h2, .inl ⟨h3, rfl⟩⟩
        | down hm hl =>
          rw [List.mem_singleton] at hm; cases hm
          refine ⟨by simpa using hc.2.1, hc.2.2.1, fun hk => ?_⟩
          obtain ⟨v, vs, h1, h2, h3⟩ := hc.2.2.2.2 hk
          cases h1
          exact ⟨h2, .inr ⟨_, _, hl, h3⟩⟩
      have hsize : sizeOf kids ≤ n := by have := sizeOf_kids mx pr seg pat kids rest; omega
      have hfewK := hfew.kids (n := .mk mx pr seg pat kids) List.mem_cons_self
      have hliveK := hlive.kids (n := .mk mx pr seg pat kids) List.mem_cons_self
      simp only [Node.kids] at hfewK hliveK
      have hthruK : ∀ l, Thru kids l → _ := fun l hl => hthru ((seg, pr) :: l) (.down List.mem_cons_self hl)
      have hself0 := hthru [(seg, pr)] (.here List.mem_cons_self)
      by_cases hmx : mx.toNat < us.length + 1
      · rw [if_pos hmx] at hfail
        exact hfail rfl fun h => by have := (hself h).1; omega
      · rw [if_neg hmx] at hfail hsucc
        cases ha : acc seg u with
        | none => exact absurd ha (hacc seg (.here List.mem_cons_self) u (by simp))
        | some k =>
          rw [ha] at hfail hsucc
          by_cases hu : k = .unknown
          · subst hu
            refine hfail rfl fun h => ?_
            by_cases hk : seg.kind = .multiple
            · rw [hstar _ _ hk] at ha; cases ha
            · have h' := (hself h).2.2 hk
              rw [ha] at h'
              exact (hself h).2.1 (Option.some.inj h'.1).symm
          · have hks : k = seg.kind := (hkind _ _ _ ha).resolve_left hu
            by_cases hm : k = .multiple
            · have hkm : seg.kind = .multiple := by rw [← hks]; exact hm
              subst hm
              by_cases hleaf : kids = [] ∧ pat.isSome
              · obtain ⟨rfl, hl⟩ := hleaf
                obtain ⟨p, rfl⟩ := Option.isSome_iff_exists.1 hl
                exact hsucc p _ [(seg, mx)] rfl (.here List.mem_cons_self)
              · simp only [byKind] at hsucc
                rw [ifLeaf_no hleaf] at hsucc
                have hkne : kids ≠ [] := by
                  rcases hlive.top _ List.mem_cons_self with h | h
                  · intro e; exact hleaf ⟨e, h⟩
                  · exact h
                have hd : d + 1 < 19 := by
                  rcases hself0 with h | ⟨_, h⟩
                  · simp at h; omega
                  · exact absurd hkm (h (seg, pr) (by simp))
                obtain ⟨p, ls, l, h1, h2⟩ := starLoop_right (acc := acc) (any := fun v => anyAcc acc v kids) (f := below acc d kids) (ns := kids)
                  (us := u :: us) (hto [] kids [] (u :: us) (.here List.mem_cons_self hkm hkne) rfl hne rfl)
                  (fun vs v ws e => anyAcc_some fun c hc => hacc c.seg (.down List.mem_cons_self (by cases c; exact .here hc)) v (by rw [e]; simp))
                  (fun vs v ws e hf ht => anyAcc_taken (fun s hs => by rw [hstar s v hs]; simp) ht hf)
                  (fun vs v ws e _ => by
                    rw [below, if_pos hd, Nat.mod_eq_of_lt hfewK.top]
                    refine ih kids hsize (d + 1) kids.length (v :: ws) hfewK hliveK ?_ ?_ ?_ ?_ (by simp) (Nat.le_refl _)
                    · intro s hs w hw
                      exact hacc s (.down List.mem_cons_self hs) w (by rw [e]; simp at hw ⊢; exact .inr hw)
                    · intro l hl hlies
                      refine hmid (seg :: l) (.down List.mem_cons_self hl) ⟨by rw [hkm]; simp, fun _ => ⟨vs, v :: ws, e, hlies⟩, fun h => absurd hkm h⟩
                    · intro l ks vs' ws' hl e' hws hlies
                      refine hto (seg :: l) ks (vs ++ vs') ws' (.down List.mem_cons_self hl) (by rw [e, e']; simp) hws ?_
                      exact ⟨by rw [hkm]; simp, fun _ => ⟨vs, vs', rfl, hlies⟩, fun h => absurd hkm h⟩
                    · intro l hl
                      rcases hthruK l hl with h | ⟨_, h⟩
                      · left; simp at h; omega
                      · exact absurd hkm (h (seg, pr) (by simp)))
                exact hsucc p ls _ h1 (.down List.mem_cons_self h2)
            · rw [byKind_other hu hm] at hfail hsucc
              have hkm : seg.kind ≠ .multiple := by rw [← hks]; exact hm
              have hku : seg.kind ≠ .unknown := by rw [← hks]; exact hu
              have hlie : ∀ {l vs}, Lies acc l vs → Lies acc (seg :: l) (u :: vs) :=
                fun h => ⟨hku, fun h' => absurd h' hkm, fun _ => ⟨u, _, rfl, by rw [ha, hks], h⟩⟩
              cases us with
              | nil =>
                cases pat with
                | none => exact absurd (hlie (l := []) rfl) (hmid [seg] (.here List.mem_cons_self hkm))
                | some p => exact hsucc p _ [(seg, mx)] rfl (.here List.mem_cons_self)
              | cons v us =>
                have hd : d + 1 < 19 := by
                  rcases hself0 with h | ⟨h, _⟩
                  · simp at h; omega
                  · simp at h; omega
                have hbelow : below acc d kids (v :: us) = tryC acc (d + 1) kids kids.length (v :: us) := by
                  rw [below, if_pos hd, Nat.mod_eq_of_lt hfewK.top]
                rw [hbelow] at hfail hsucc
                have hI := ih kids hsize (d + 1) kids.length (v :: us) hfewK hliveK
                  (fun s hs w hw => hacc s (.down List.mem_cons_self hs) w (by simp at hw ⊢; exact .inr hw))
                  (fun l hl hlies => hmid (seg :: l) (.down List.mem_cons_self hl) (hlie hlies))
                  (fun l ks vs ws hl e hws hlies => hto (seg :: l) ks (u :: vs) ws (.down List.mem_cons_self hl) (by rw [e]; rfl) hws (hlie hlies))
                  (fun l hl => by
                    rcases hthruK l hl with h | ⟨h, h'⟩
                    · left; simp at h; omega
                    · right; exact ⟨by simp at h ⊢; omega, fun c hc => h' c (by simp [hc])⟩)
                  (by simp) (Nat.le_refl _)
                rcases hI with ⟨p, ls, l, h1, h2⟩ | ⟨h1, h2⟩
                · exact hsucc p (k :: ls) ((seg, mx) :: l) (by rw [h1]; rfl) (.down List.mem_cons_self h2)
                · refine hfail (by rw [h1]; rfl) ?_
                  intro h
                  rcases ((hself h).2.2 hkm).2 with ⟨h, _⟩ | h
                  · cases h
                  · exact h2 h

end Gofre.Path
