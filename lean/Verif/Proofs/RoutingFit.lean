import Verif.Proofs.Routing

/-! # From accepting nodes to described requests -/

namespace Gofre.Path
open Gofre.Spec

theorem piece_unknown {ci : Bool} {v : Str} {s : Segment} (h : Piece ci v s) : s.kind ≠ .unknown := by
  cases h <;> simp

theorem fit_of_match {x : Ext} {ci : Bool} {c : Segment} {u : Str} (hp : Piece ci c.val c) (hm : matchText x ci c u = some c.kind) :
    Fit x ci c u := by
  have hunk := piece_unknown hp
  unfold matchText at hm
  unfold Fit
  cases hk : c.kind <;> simp only [hk] at hm hunk ⊢
  · exact absurd rfl hunk
  · split at hm
    · cases ci
      · by_cases he : u = c.val
        · exact .inl he
        · simp [he] at hm
      · by_cases he : x.eqFold u c.val = true
        · exact .inr ⟨rfl, he⟩
        · simp [he] at hm
    · simp at hm
  · cases hr : c.re with
    | none => rw [hr] at hm; simp at hm
    | some src =>
      rw [hr] at hm
      refine ⟨src, rfl, ?_⟩
      by_cases he : x.reMatch src u = true
      · exact he
      · simp [he] at hm
  · split at hm
    · rename_i he
      refine Gofre.Props.c01_accepts_only_described ci c.val u ?_ he
      generalize hv : c.val = v at hp
      cases hp <;> simp at hk
      rename_i h1 h2 h3 h4 h5
      exact h5
    · simp at hm
    · simp at hm

theorem sameLetter_symm {ci : Bool} {a b : UInt8} (h : sameLetter ci a b) : sameLetter ci b a := by
  rcases h with rfl | ⟨hc, h | h⟩
  · exact .inl rfl
  · exact .inr ⟨hc, .inr h⟩
  · exact .inr ⟨hc, .inl h⟩

theorem sameLetter_trans {ci : Bool} {a b c : UInt8} (h : sameLetter ci a b) (h' : sameLetter ci b c) : sameLetter ci a c := by
  unfold sameLetter isLowerLetter at *
  rcases h with rfl | ⟨hc, h⟩
  · exact h'
  · rcases h' with rfl | ⟨_, h'⟩
    · exact .inr ⟨hc, h⟩
    · rcases h with h | h <;> rcases h' with h' | h'
      · omega
      · left; apply UInt8.toNat_inj.1; omega
      · left; apply UInt8.toNat_inj.1; omega
      · omega

theorem sameLetter_special {ci : Bool} {a b : UInt8} (h : sameLetter ci a b) (hb : b = 63 ∨ b = 42) : a = b := by
  unfold sameLetter isLowerLetter at h
  rcases h with rfl | ⟨_, h⟩
  · rfl
  · have : b.toNat = 63 ∨ b.toNat = 42 := by rcases hb with rfl | rfl <;> simp
    omega

theorem glob_congr {ci : Bool} {p u : Str} (h : Glob (sameLetter ci) p u) : ∀ {q : Str}, All2 (sameLetter ci) q p → Glob (sameLetter ci) q u := by
  induction h with
  | nil => intro q hq; cases hq; exact .nil
  | any _ ih =>
    intro q hq
    cases hq with
    | cons h1 h2 => have := sameLetter_special h1 (.inl rfl); subst this; exact .any (ih h2)
  | star w _ ih =>
    intro q hq
    cases hq with
    | cons h1 h2 => have := sameLetter_special h1 (.inr rfl); subst this; exact .star w (ih h2)
  | lit h63 h42 he _ ih =>
    intro q hq
    cases hq with
    | cons h1 h2 =>
      refine .lit ?_ ?_ (sameLetter_trans he (sameLetter_symm h1)) (ih h2)
      · rintro rfl; exact h63 (sameLetter_special (sameLetter_symm h1) (.inl rfl))
      · rintro rfl; exact h42 (sameLetter_special (sameLetter_symm h1) (.inr rfl))

theorem shares_kind {x : Ext} {ci : Bool} {s c : Segment} (h : shares x ci s c = true) : c.kind = s.kind := by
  unfold shares at h
  split at h
  · assumption
  · cases h

theorem on_kind {x : Ext} {ci : Bool} {s c : Segment} (h : c = s ∨ shares x ci s c = true) : c.kind = s.kind := by
  rcases h with rfl | h
  · rfl
  · exact shares_kind h

/-- Constraints never share a node, apart from the excluded texts. -/
theorem not_shares_constraint {x : Ext} {ci : Bool} {s c : Segment} (hc : Piece ci c.val c) (hs : Piece ci s.val s) (hpl : Unbraced ci s)
    (hk : s.kind = .constraint) : shares x ci s c = false := by
  unfold shares
  split
  · rename_i hkk
    rw [hkk, hk]
    simp only [beq_eq_false_iff_ne, ne_eq]
    intro he
    have hhead : c.val.head? = some 123 := by
      generalize hv : c.val = v at hc
      rw [hk] at hkk
      cases hc <;> simp at hkk
      simp
    cases ci with
    | false => exact hpl hk rfl _ he hhead
    | true =>
      generalize hv : s.val = v at hs
      cases hs <;> simp at hk he
      rw [← he] at hhead
      simp at hhead
  · rfl

/-- What a node accepts is described by every segment sharing the node. -/
theorem fit_shared {x : Ext} {ci : Bool} (hl : FoldLaws x.eqFold) {c s : Segment} {u : Str} (hc : Piece ci c.val c) (hs : Piece ci s.val s)
    (hpc : Plain ci c) (hps : Plain ci s) (hon : c = s ∨ shares x ci s c = true) (hm : matchText x ci c u = some c.kind) :
    Fit x ci s u := by
  have hf := fit_of_match hc hm
  rcases hon with rfl | hsh
  · exact hf
  · have hk := shares_kind hsh
    have hcon : s.kind ≠ .constraint := fun h => by rw [not_shares_constraint hc hs hps.1 h] at hsh; cases hsh
    unfold shares at hsh
    rw [if_pos hk] at hsh
    unfold Fit at hf ⊢
    cases hks : s.kind <;> simp only [hks, hk] at hf hsh hcon ⊢
    · cases ci with
      | false => simp at hsh hf; left; rw [hf, hsh]
      | true =>
        simp at hsh
        right
        refine ⟨rfl, ?_⟩
        rcases hf with rfl | ⟨_, hf⟩
        · exact hl.symm _ _ hsh
        · exact hl.trans _ _ _ hf (hl.symm _ _ hsh)
    · exact absurd rfl hcon
    · cases ci with
      | false => simp at hsh; rw [hsh]; exact hf
      | true =>
        simp at hsh
        exact glob_congr hf (hl.ascii _ _ (hps.2 hks rfl) (hpc.2 (by rw [hk, hks]) rfl) hsh)

/-! ### Laying the pattern over the request -/

theorem all2_getLast {α β : Type} {R : α → β → Prop} {l : List α} {m : List β} (h : All2 R l m) {b : β} (hb : m.getLast? = some b) :
    ∃ a, l.getLast? = some a ∧ R a b := by
  induction h with
  | nil => simp at hb
  | @cons a' b' l m hr ht ih =>
    cases ht with
    | nil => simp at hb; subst hb; exact ⟨a', rfl, hr⟩
    | cons h1 h2 =>
      rw [List.getLast?_cons_cons] at hb
      obtain ⟨a, h3, h4⟩ := ih hb
      exact ⟨a, by rw [List.getLast?_cons_cons]; exact h3, h4⟩

theorem labelsOf_congr {U : Type} {ss ts : List Segment} (h : All2 (fun a b => a.kind = b.kind) ss ts) :
    ∀ (bs : List (List U)), labelsOf ss bs = labelsOf ts bs := by
  induction h with
  | nil => intro bs; rfl
  | cons hr _ ih =>
    intro bs
    cases bs with
    | nil => rfl
    | cons b bs => simp only [labelsOf, hr, ih]

theorem all2_trans {α β γ : Type} {R : α → β → Prop} {S : α → γ → Prop} {T : β → γ → Prop} {l : List α} {m : List β} {n : List γ}
    (h : All2 R l m) (h' : All2 S l n) (hi : ∀ a b c, a ∈ l → b ∈ m → c ∈ n → R a b → S a c → T b c) : All2 T m n := by
  induction h generalizing n with
  | nil => cases h'; exact .nil
  | cons hr _ ih =>
    cases h' with
    | cons hs ht =>
      exact .cons (hi _ _ _ (by simp) (by simp) (by simp) hr hs)
        (ih ht fun a b c ha hb hc => hi a b c (by simp [ha]) (by simp [hb]) (by simp [hc]))

/-- A pattern found is registered and laid over the request, with the labels of that layout. -/
theorem found_layout {x : Ext} {ci : Bool} (hl : FoldLaws x.eqFold) {ps : List Pattern} {m : Matcher} (hh : Holds x ci ps m)
    (hpiece : ∀ p ∈ ps, ∀ s ∈ p.segments, Piece ci s.val s) (hplain : ∀ p ∈ ps, ∀ s ∈ p.segments, Plain ci s)
    {us : List Str} {p : Pattern} {ls : List MT} (h : answer (matchText x ci) m us = .found p ls) :
    p ∈ ps ∧ ∃ bs, Layout x ci p.segments us bs ∧ ls = labelsOf p.segments bs := by
  have hroot : us = [] → m.root.isSome → p ∈ ps ∧ ∃ bs, Layout x ci p.segments us bs ∧ ls = labelsOf p.segments bs := by
    intro hu hr
    subst hu
    obtain ⟨q, hq⟩ := Option.isSome_iff_exists.1 hr
    simp only [answer, hq, MRes.found.injEq] at h
    obtain ⟨rfl, rfl⟩ := h
    obtain ⟨h1, h2⟩ := hh.root q hq
    refine ⟨h1, [], ⟨by rw [h2]; exact .nil, rfl, by rw [h2]; simp⟩, by rw [h2]; rfl⟩
  by_cases hcase : us = [] ∧ m.root.isSome
  · exact hroot hcase.1 hcase.2
  · have h' : (tryC (matchText x ci) 0 m.kids (m.kids.length % 65536) us).toM = .found p ls := by
      cases us with
      | nil =>
        cases hr : m.root with
        | none => simpa [answer, hr] using h
        | some q => exact absurd ⟨rfl, by rw [hr]; rfl⟩ hcase
      | cons u us => simpa [answer] using h
    cases ht : tryC (matchText x ci) 0 m.kids (m.kids.length % 65536) us with
    | found q l' =>
      rw [ht] at h'
      simp only [Res.toM, MRes.found.injEq] at h'
      obtain ⟨rfl, rfl⟩ := h'
      obtain ⟨l, bs, h1, _, h2⟩ := tryC_sound (fun _ _ _ => matchText_kind) (fun _ _ v h => matchText_star h v) _ m.kids (Nat.le_refl _) _ _ _ _ _ ht
      obtain ⟨h3, h4⟩ := hh.leaf l q h1
      have hon : All2 (fun (c : Segment) s => c = s ∨ shares x ci s c = true) (l.map (·.1)) q.segments := All2.map_left.2 h4
      have hnode : ∀ c ∈ l.map (·.1), ∃ p ∈ ps, c ∈ p.segments := by
        intro c hc
        obtain ⟨c', hc', rfl⟩ := List.mem_map.1 hc
        exact hh.nodes _ (has_of_leaf h1 c' hc')
      refine ⟨h3, bs, ⟨?_, h2.joined, ?_⟩, ?_⟩
      · refine all2_trans hon h2.blocks fun c s b hc hs hb hcs hcb => ?_
        refine ⟨fun hk => hcb.2.1 (by rw [on_kind hcs]; exact hk), fun u hu => ?_⟩
        obtain ⟨p', hp', hc'⟩ := hnode c hc
        exact fit_shared hl (hpiece p' hp' c hc') (hpiece q h3 s hs) (hplain p' hp' c hc') (hplain q h3 s hs) hcs (hcb.2.2 u hu)
      · intro s hs hk
        obtain ⟨c, hc, hcs⟩ := all2_getLast hon hs
        exact h2.last c hc (by rw [on_kind hcs]; exact hk)
      · rw [h2.labels]
        exact labelsOf_congr (hon.imp fun _ _ _ _ h => on_kind h) bs
    | next => rw [ht] at h'; cases h'
    | stop => rw [ht] at h'; cases h'
    | abort => rw [ht] at h'; cases h'
    | panic => rw [ht] at h'; cases h'

/-! ### Variables -/

theorem nthVar_skip {U : Type} {k : Nat} {lab : MT} (h : lab ≠ .capture ∧ lab ≠ .constraint) : ∀ (b us : List U) (ls : List MT),
    nthVar k (List.replicate b.length lab ++ ls) (b ++ us) = nthVar k ls us := by
  intro b
  induction b with
  | nil => intro us ls; rfl
  | cons u b ih =>
    intro us ls
    simp only [List.length_cons, List.replicate_succ, List.cons_append, nthVar]
    rw [if_neg (by rintro (e | e); exact h.1 e; exact h.2 e)]
    exact ih us ls

/-- Reading the variables back from the labels gives the text each one covers. -/
theorem pathVar_value (name : Str) : ∀ (ss : List Segment) (bs : List (List Str)),
    All2 (fun s (b : List Str) => s.kind ≠ .multiple → b.length = 1) ss bs →
    valueIn name ss bs = (varIndex name ss).bind fun k => nthVar k (labelsOf ss bs) bs.flatten := by
  intro ss bs h
  induction h with
  | nil => rfl
  | @cons s b ss bs hr _ ih =>
    simp only [valueIn, varIndex, labelsOf, List.flatten_cons]
    by_cases hv : s.kind = .capture ∨ s.kind = .constraint
    · have hb : b.length = 1 := hr (by rcases hv with h | h <;> rw [h] <;> simp)
      obtain ⟨u, rfl⟩ := List.length_eq_one_iff.1 hb
      rw [if_pos hv]
      by_cases hn : s.varName = name
      · rw [if_pos ⟨hv, hn⟩, if_pos hn]
        simp [nthVar, hv]
      · rw [if_neg (fun e => hn e.2), if_neg hn, ih]
        cases varIndex name ss with
        | none => rfl
        | some k => simp [nthVar, hv]
    · rw [if_neg (fun e => hv e.1), if_neg hv, ih]
      congr 1
      funext k
      exact (nthVar_skip ⟨fun e => hv (.inl e), fun e => hv (.inr e)⟩ b bs.flatten (labelsOf ss bs)).symm

theorem nthVar_congr {U V : Type} {R : U → V → Prop} {us : List U} {vs : List V} (h : All2 R us vs) : ∀ (k : Nat) (ls : List MT),
    (nthVar k ls us = none ∧ nthVar k ls vs = none) ∨ ∃ u v, nthVar k ls us = some u ∧ nthVar k ls vs = some v ∧ R u v := by
  induction h with
  | nil => intro k ls; cases ls <;> exact .inl ⟨rfl, rfl⟩
  | @cons u v us vs hr _ ih =>
    intro k ls
    cases ls with
    | nil => exact .inl ⟨rfl, rfl⟩
    | cons l ls =>
      simp only [nthVar]
      split
      · cases k with
        | zero => exact .inr ⟨u, v, rfl, rfl, hr⟩
        | succ k => exact ih k ls
      · exact ih k ls

end Gofre.Path
