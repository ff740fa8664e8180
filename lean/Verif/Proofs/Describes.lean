import Verif.Proofs.RoutingFit

/-! # Reading `Describes` segment by segment, building concrete matchers -/

namespace Gofre.Path
open Gofre.Spec

variable {x : Ext} {ci : Bool}

theorem describes_nil {us : List Str} : Describes x ci [] us ↔ us = [] := by
  constructor
  · rintro ⟨bs, h1, h2, _⟩
    cases h1
    simpa using h2.symm
  · rintro rfl
    exact ⟨[], .nil, rfl, by simp⟩

theorem describes_one {s : Segment} (hs : s.kind ≠ .multiple) {ss : List Segment} {us : List Str} :
    Describes x ci (s :: ss) us ↔ ∃ u vs, us = u :: vs ∧ Fit x ci s u ∧ Describes x ci ss vs := by
  constructor
  · rintro ⟨bs, h1, h2, h3⟩
    cases h1 with
    | @cons _ b _ bs hr ht =>
      obtain ⟨u, rfl⟩ := List.length_eq_one_iff.1 (hr.1 hs)
      refine ⟨u, bs.flatten, by simpa using h2.symm, hr.2 u (by simp), bs, ht, rfl, ?_⟩
      intro t htl hk
      cases ht with
      | nil => simp at htl
      | cons _ _ =>
        rw [List.getLast?_cons_cons] at h3
        have := h3 t htl hk
        rwa [List.getLast?_cons_cons] at this
  · rintro ⟨u, vs, rfl, hf, bs, h1, h2, h3⟩
    refine ⟨[u] :: bs, .cons ⟨fun _ => rfl, by simpa using hf⟩ h1, by simp [h2], ?_⟩
    intro t htl hk
    cases h1 with
    | nil => simp at htl; subst htl; exact absurd hk hs
    | cons _ _ =>
      rw [List.getLast?_cons_cons] at htl ⊢
      exact h3 t htl hk

theorem describes_star {s : Segment} (hs : s.kind = .multiple) {ss : List Segment} {us : List Str} :
    Describes x ci (s :: ss) us ↔ ∃ vs ws, us = vs ++ ws ∧ (ss = [] → vs ≠ []) ∧ Describes x ci ss ws := by
  constructor
  · rintro ⟨bs, h1, h2, h3⟩
    cases h1 with
    | @cons _ b _ bs hr ht =>
      refine ⟨b, bs.flatten, by simpa using h2.symm, ?_, bs, ht, rfl, ?_⟩
      · rintro rfl rfl
        cases ht
        exact h3 s rfl hs rfl
      · intro t htl hk
        cases ht with
        | nil => simp at htl
        | cons _ _ =>
          rw [List.getLast?_cons_cons] at h3
          have := h3 t htl hk
          rwa [List.getLast?_cons_cons] at this
  · rintro ⟨b, ws, rfl, hne, bs, h1, h2, h3⟩
    refine ⟨b :: bs, .cons ⟨fun h => absurd hs h, fun u _ => by simp [Fit, hs]⟩ h1, by simp [h2], ?_⟩
    intro t htl hk
    cases h1 with
    | nil =>
      simp only [List.getLast?_singleton, ne_eq, Option.some.injEq]
      exact hne rfl
    | cons _ _ =>
      rw [List.getLast?_cons_cons] at htl ⊢
      exact h3 t htl hk

/-! ### Concrete matchers -/

/-- Register the patterns of the list, last one first in the list. -/
def build (x : Ext) (ci : Bool) (srt : List Node → List Node) : List (Str × Nat) → Option (List Pattern × Matcher)
  | [] => some ([], {})
  | (raw, h) :: rest =>
    match build x ci srt rest with
    | none => none
    | some (ps, m) =>
      match parsePattern x ci raw with
      | .ok p =>
        match addPattern x ci srt m { p with attachment := h } with
        | (m', false) => some ({ p with attachment := h } :: ps, m')
        | (m', true) => some (ps, m')
      | _ => none

theorem build_registered {srt : List Node → List Node} : ∀ {l : List (Str × Nat)} {ps : List Pattern} {m : Matcher},
    build x ci srt l = some (ps, m) → Registered x ci srt ps m := by
  intro l
  induction l with
  | nil => intro ps m h; simp [build] at h; obtain ⟨rfl, rfl⟩ := h; exact .new
  | cons a l ih =>
    obtain ⟨raw, h⟩ := a
    intro ps m hb
    simp only [build] at hb
    split at hb
    · cases hb
    · rename_i ps0 m0 h0
      split at hb
      · rename_i p hp
        split at hb <;> simp at hb <;> obtain ⟨rfl, rfl⟩ := hb
        · rename_i m' hm
          exact .added raw h (ih h0) hp hm
        · rename_i m' hm
          exact .refused raw h (ih h0) hp hm
      · cases hb

/-- Library functions for examples: expressions without special characters (`MatchString` finds
them as substrings), folding of ASCII letters. -/
def plainExt : Ext where
  compiles _ := true
  reMatch src u := (List.range (u.length + 1)).any fun i => src.isPrefixOf (u.drop i)
  eqFold a b := a.map upperB == b.map upperB
where
  upperB (c : UInt8) : UInt8 := if 97 ≤ c ∧ c ≤ 122 then c - 32 else c

theorem plainExt_laws : FoldLaws plainExt.eqFold := by
  have key : ∀ a b : Str, plainExt.eqFold a b = true ↔ a.map plainExt.upperB = b.map plainExt.upperB := by
    intro a b; simp [plainExt]
  refine ⟨fun a => (key a a).2 rfl, fun a b h => (key b a).2 ((key a b).1 h).symm,
    fun a b c h h' => (key a c).2 (((key a b).1 h).trans ((key b c).1 h')), ?_⟩
  intro a b _ _ h0
  have h := (key a b).1 h0
  clear key h0
  rename_i h1 h2
  clear h1 h2
  induction a generalizing b with
  | nil => cases b with
    | nil => exact .nil
    | cons c b => simp at h
  | cons d a ih =>
    cases b with
    | nil => simp at h
    | cons c b =>
      simp only [List.map_cons, List.cons.injEq] at h
      refine .cons ?_ (ih b h.2)
      have h1 := h.1
      unfold plainExt.upperB at h1
      unfold sameLetter isLowerLetter
      simp only [UInt8.le_iff_toNat_le] at h1
      by_cases hd : (97 : UInt8).toNat ≤ d.toNat ∧ d.toNat ≤ (122 : UInt8).toNat <;>
        by_cases hc : (97 : UInt8).toNat ≤ c.toNat ∧ c.toNat ≤ (122 : UInt8).toNat <;>
        simp only [hd, hc, if_true, if_false, and_self] at h1
      · left; have := congrArg UInt8.toNat h1
        rw [UInt8.toNat_sub_of_le _ _ (by rw [UInt8.le_iff_toNat_le]; simp at hd ⊢; omega),
          UInt8.toNat_sub_of_le _ _ (by rw [UInt8.le_iff_toNat_le]; simp at hc ⊢; omega)] at this
        apply UInt8.toNat_inj.1; simp at this hd hc; omega
      · right; have := congrArg UInt8.toNat h1
        rw [UInt8.toNat_sub_of_le _ _ (by rw [UInt8.le_iff_toNat_le]; simp at hd ⊢; omega)] at this
        simp at this hd hc; refine ⟨rfl, .inl ?_⟩; omega
      · right; have := congrArg UInt8.toNat h1
        rw [UInt8.toNat_sub_of_le _ _ (by rw [UInt8.le_iff_toNat_le]; simp at hc ⊢; omega)] at this
        simp at this hd hc; refine ⟨rfl, .inr ?_⟩; omega
      · exact .inl h1

/-- The answer to a request after registering the patterns of the list (last one first). -/
def served (x : Ext) (ci : Bool) (l : List (Str × Nat)) (path : Str) (buf : List USeg) (fuel : Nat) : Option MRes :=
  match build x ci sortSiblings l with
  | none => none
  | some (_, m) => lookup x ci m path buf fuel

/-- A check of the registered patterns. -/
def checked (x : Ext) (ci : Bool) (l : List (Str × Nat)) (f : List Pattern → Bool) : Bool :=
  match build x ci sortSiblings l with
  | none => false
  | some (ps, _) => f ps

theorem checked_spec {l : List (Str × Nat)} {f : List Pattern → Bool} (h : checked x ci l f = true) :
    ∃ ps m, Registered x ci sortSiblings ps m ∧ f ps = true ∧
      ∀ path buf fuel, served x ci l path buf fuel = lookup x ci m path buf fuel := by
  unfold checked at h
  split at h
  · cases h
  · rename_i ps m hb
    exact ⟨ps, m, build_registered hb, h, fun path buf fuel => by simp [served, hb]⟩

/-- The pattern spelled by a text. -/
def patOf (x : Ext) (ci : Bool) (raw : Str) (h : Nat) : Pattern :=
  match parsePattern x ci raw with
  | .ok p => { p with attachment := h }
  | _ => { raw := [] }

theorem parse_raw {pat : Str} {p : Pattern} (h : parsePattern x ci pat = .ok p) : p.raw = pat := by
  unfold parsePattern at h
  split at h
  · cases h
  · split at h
    · cases h
    · split at h
      · simp at h; subst h; rfl
      · split at h
        · simp only at h
          generalize computePriority _ = o at h
          cases o with
          | none => cases h
          | some prio => simp at h; rw [← h]
        · cases h
        · cases h
        · cases h

end Gofre.Path
