import Verif.Spec.Chars
import Verif.Spec.Glob

/-! # Wildcards over bytes and over characters -/

namespace Gofre.Chars
open Gofre.Spec

/-- No byte begins a character. -/
def Conts (t : Str) : Prop := ∀ b ∈ t, ¬ b.IsUTF8FirstByte

theorem enc_cons (c : Char) (l : List Char) : enc (c :: l) = String.utf8EncodeChar c ++ enc l := by simp [enc]
theorem enc_nil : enc [] = [] := rfl

theorem char_bytes (c : Char) : ∃ f t, String.utf8EncodeChar c = f :: t ∧ f.IsUTF8FirstByte ∧ Conts t := by
  have hlen : 0 < (String.utf8EncodeChar c).length := by rw [String.length_utf8EncodeChar]; exact Char.utf8Size_pos c
  have key := fun i hi => @UInt8.isUTF8FirstByte_getElem_utf8EncodeChar c i hi
  cases h : String.utf8EncodeChar c with
  | nil => rw [h] at hlen; simp at hlen
  | cons f t =>
    refine ⟨f, t, rfl, ?_, ?_⟩
    · have := (key 0 hlen).2 rfl
      simpa [h] using this
    · intro b hb
      obtain ⟨i, hi, rfl⟩ := List.mem_iff_getElem.1 hb
      intro hf
      have := (key (i + 1) (by rw [h]; simp; omega)).1 (by simpa [h] using hf)
      omega

theorem short_bytes {c : Char} (h : Short c) : String.utf8EncodeChar c = [UInt8.ofNat c.toNat] := by
  have : c.val.toNat ≤ 127 := by have : c.toNat < 128 := h; show c.toNat ≤ 127; omega
  simp only [String.utf8EncodeChar, this, if_true]
  rfl

theorem long_bytes {c : Char} (h : ¬ Short c) : ∀ b ∈ String.utf8EncodeChar c, 128 ≤ b.toNat := by
  have hc : ¬ c.val.toNat ≤ 127 := by have : ¬ c.toNat < 128 := h; show ¬ c.toNat ≤ 127; omega
  intro b hb
  simp only [String.utf8EncodeChar, hc, if_false] at hb
  split at hb
  · simp at hb
    rcases hb with rfl | rfl <;> simp <;> omega
  · split at hb
    · simp at hb
      rcases hb with rfl | rfl | rfl <;> simp <;> omega
    · simp at hb
      rcases hb with rfl | rfl | rfl | rfl <;> simp <;> omega

theorem prefix_free {c d : Char} {r s : Str} (h : String.utf8EncodeChar c ++ r = String.utf8EncodeChar d ++ s) : c = d ∧ r = s := by
  have hc : c = d := by
    have h1 := @ByteArray.utf8DecodeChar?_utf8EncodeChar_append r.toByteArray c
    have h2 := @ByteArray.utf8DecodeChar?_utf8EncodeChar_append s.toByteArray d
    rw [← List.toByteArray_append, h, List.toByteArray_append, h2] at h1
    exact (Option.some.inj h1).symm
  subst hc
  exact ⟨rfl, List.append_cancel_left h⟩

/-- What is left of a text after some bytes: the end of a character and whole characters. -/
theorem cut (U : List Char) : ∀ (t w u : Str), Conts t → t ++ enc U = w ++ u →
    ∃ t' U' U'', Conts t' ∧ u = t' ++ enc U'' ∧ U = U' ++ U'' ∧ (t = [] → (∀ c ∈ U, Short c) → t' = []) := by
  induction U with
  | nil =>
    intro t w u ht h
    refine ⟨u, [], [], fun b hb => ht b ?_, by simp [enc], rfl, fun h0 _ => ?_⟩
    · have : b ∈ t ++ enc [] := by rw [h]; simp [hb]
      simpa [enc] using this
    · subst h0; simp [enc] at h; exact h.2
  | cons d U ih =>
    intro t w u ht h
    rcases List.append_eq_append_iff.1 h with ⟨a, h1, h2⟩ | ⟨a, h1, h2⟩
    · obtain ⟨f, td, hf, hff, htd⟩ := char_bytes d
      cases a with
      | nil =>
        refine ⟨[], [], d :: U, (by intro b hb; cases hb), ?_, rfl, fun _ _ => rfl⟩
        simpa using h2.symm
      | cons b a =>
        rw [enc_cons, hf] at h2
        simp only [List.cons_append, List.cons.injEq] at h2
        obtain ⟨t', U', U'', g1, g2, g3, g4⟩ := ih td a u htd h2.2
        refine ⟨t', d :: U', U'', g1, g2, by simp [g3], fun _ hs => g4 ?_ fun c hc => hs c (List.mem_cons_of_mem _ hc)⟩
        have := short_bytes (hs d List.mem_cons_self)
        rw [hf] at this
        simp at this
        exact this.2
    · refine ⟨a, [], d :: U, fun b hb => ht b (by rw [h1]; simp [hb]), h2, rfl, fun h0 _ => ?_⟩
      rw [h0] at h1
      exact (List.append_eq_nil_iff.1 h1.symm).2

/-- Two texts of the same length related byte by byte. -/
inductive Each (eqv : UInt8 → UInt8 → Prop) : Str → Str → Prop
  | nil : Each eqv [] []
  | cons {a b v w} : eqv a b → Each eqv v w → Each eqv (a :: v) (b :: w)

/-- Bytes that stand for themselves. -/
theorem lits {eqv : UInt8 → UInt8 → Prop} : ∀ (bs p v : Str), (∀ b ∈ bs, b ≠ 63 ∧ b ≠ 42) → Glob eqv (bs ++ p) v →
    ∃ v1 v2, v = v1 ++ v2 ∧ Each eqv v1 bs ∧ Glob eqv p v2 := by
  intro bs
  induction bs with
  | nil => intro p v _ h; exact ⟨[], v, rfl, .nil, h⟩
  | cons b bs ih =>
    intro p v hb h
    have h0 := hb b List.mem_cons_self
    rw [List.cons_append] at h
    generalize hq : b :: (bs ++ p) = q at h
    cases h with
    | nil => cases hq
    | any h => exact absurd (List.cons.inj hq).1 h0.1
    | star w h => exact absurd (List.cons.inj hq).1 h0.2
    | lit h1 h2 h3 h4 =>
      obtain ⟨rfl, rfl⟩ := List.cons.inj hq
      obtain ⟨v1, v2, rfl, g1, g2⟩ := ih p _ (fun x hx => hb x (List.mem_cons_of_mem _ hx)) h4
      exact ⟨_ :: v1, v2, rfl, .cons h3 g1, g2⟩

theorem lits_back {eqv : UInt8 → UInt8 → Prop} {v1 bs p v2 : Str} (hb : ∀ b ∈ bs, b ≠ 63 ∧ b ≠ 42) (h : Each eqv v1 bs) (hg : Glob eqv p v2) :
    Glob eqv (bs ++ p) (v1 ++ v2) := by
  induction h with
  | nil => exact hg
  | cons h1 _ ih =>
    have := hb _ List.mem_cons_self
    exact .lit this.1 this.2 h1 (ih fun x hx => hb x (List.mem_cons_of_mem _ hx))

theorem each_same : ∀ {v w : Str}, Each (sameLetter false) v w → v = w := by
  intro v w h
  induction h with
  | nil => rfl
  | cons h1 _ ih =>
    rcases h1 with h1 | ⟨h1, _⟩
    · rw [h1, ih]
    · cases h1

theorem each_refl {ci : Bool} : ∀ v : Str, Each (sameLetter ci) v v
  | [] => .nil
  | _ :: v => .cons (.inl rfl) (each_refl v)

theorem enc_ne {c : Char} (h1 : c ≠ '?') (h2 : c ≠ '*') : ∀ b ∈ String.utf8EncodeChar c, b ≠ 63 ∧ b ≠ 42 := by
  intro b hb
  by_cases hs : Short c
  · rw [short_bytes hs, List.mem_singleton] at hb
    have hlt : c.toNat < 128 := hs
    subst hb
    constructor
    · intro h
      refine h1 (Char.ext (UInt32.toNat_inj.1 ?_))
      have := congrArg UInt8.toNat h
      simp at this
      show c.toNat = 63
      omega
    · intro h
      refine h2 (Char.ext (UInt32.toNat_inj.1 ?_))
      have := congrArg UInt8.toNat h
      simp at this
      show c.toNat = 42
      omega
  · have := long_bytes hs b hb
    constructor <;> (rintro rfl; simp at this)

/-- The first byte of a character tells whether it is short. -/
theorem head_short {d : Char} {b : UInt8} {t : Str} (h : String.utf8EncodeChar d = b :: t) (hb : b.toNat < 128) :
    Short d ∧ t = [] ∧ b.toNat = d.toNat := by
  by_cases hs : Short d
  · have e := short_bytes hs
    rw [h] at e
    simp only [List.cons.injEq] at e
    refine ⟨hs, e.2, ?_⟩
    have hlt : d.toNat < 128 := hs
    rw [e.1]; simp; omega
  · exact absurd (long_bytes hs b (by rw [h]; simp)) (by omega)

theorem first_of_low {b : UInt8} (h : b.toNat < 128) : b.IsUTF8FirstByte := by
  have key : ∀ n : Fin 128, UInt8.ofNat n.val &&& 128 = 0 := by decide
  have := key ⟨b.toNat, h⟩
  simp only [UInt8.ofNat_toNat] at this
  exact .inl this

theorem toLower_nat (c : Char) : c.toLower.toNat = if 65 ≤ c.toNat ∧ c.toNat ≤ 90 then c.toNat + 32 else c.toNat := by
  unfold Char.toLower
  split
  · rename_i h
    have h1 : 65 ≤ c.toNat := UInt32.le_iff_toNat_le.1 h.1
    have h2 : c.toNat ≤ 90 := UInt32.le_iff_toNat_le.1 h.2
    rw [if_pos ⟨h1, h2⟩]
    show (c.val + ('a'.val - 'A'.val)).toNat = _
    rw [UInt32.toNat_add]
    show (c.toNat + 32) % 2 ^ 32 = _
    omega
  · rename_i h
    rw [if_neg]
    rintro ⟨h1, h2⟩
    exact h ⟨UInt32.le_iff_toNat_le.2 h1, UInt32.le_iff_toNat_le.2 h2⟩

theorem sameLetter_short {a b : UInt8} {c d : Char} (hb : b.toNat < 128) (hbc : b.toNat = c.toNat) (had : a.toNat = d.toNat) :
    sameLetter true a b ↔ SameChar true d c := by
  have e1 : a = b ↔ d.toNat = c.toNat := by rw [← UInt8.toNat_inj, hbc, had]
  have e2 : d = c ↔ d.toNat = c.toNat := ⟨fun h => by rw [h], fun h => Char.ext (UInt32.toNat_inj.1 h)⟩
  have e3 : d.toLower = c.toLower ↔ d.toLower.toNat = c.toLower.toNat := ⟨fun h => by rw [h], fun h => Char.ext (UInt32.toNat_inj.1 h)⟩
  unfold sameLetter SameChar isLowerLetter
  rw [e1, e2, e3, toLower_nat, toLower_nat, hbc, had]
  have : c.toNat < 128 := by omega
  have ha := a.toNat_lt
  simp only [true_and]
  split <;> split <;> omega

/-- Where bytes and characters are matched alike. -/
structure Fair (ci : Bool) (P U : List Char) : Prop where
  one : '?' ∈ P → ∀ c ∈ U, Short c
  low : ci = true → ∀ c ∈ P, Short c

/-- A literal character of the wildcard, read as bytes. -/
theorem lit_step {ci : Bool} {c : Char} (hlow : ci = true → Short c) {t v1 v2 : Str} {U : List Char} (ht : Conts t)
    (he : Each (sameLetter ci) v1 (String.utf8EncodeChar c)) (h : t ++ enc U = v1 ++ v2) :
    t = [] ∧ ∃ d U2, U = d :: U2 ∧ SameChar ci d c ∧ v2 = enc U2 := by
  have hfirst : ∃ f v1', v1 = f :: v1' ∧ f.IsUTF8FirstByte := by
    obtain ⟨f, tc, h1, h2, _⟩ := char_bytes c
    cases ci with
    | false => exact ⟨f, tc, (each_same he).trans h1, h2⟩
    | true =>
      have hs := hlow rfl
      have hlt : c.toNat < 128 := hs
      rw [short_bytes hs] at he
      cases he with
      | cons g1 g2 =>
        refine ⟨_, _, rfl, first_of_low ?_⟩
        unfold sameLetter isLowerLetter at g1
        rcases g1 with g1 | ⟨_, g1⟩
        · rw [g1]; simp; omega
        · simp at g1; omega
  obtain ⟨f, v1', rfl, hf⟩ := hfirst
  have ht0 : t = [] := by
    cases t with
    | nil => rfl
    | cons b t =>
      simp only [List.cons_append, List.cons.injEq] at h
      exact absurd hf (by rw [← h.1]; exact ht b List.mem_cons_self)
  subst ht0
  refine ⟨rfl, ?_⟩
  rw [List.nil_append] at h
  cases U with
  | nil => simp [enc] at h
  | cons d U2 =>
    rw [enc_cons] at h
    refine ⟨d, U2, rfl, ?_⟩
    cases ci with
    | false =>
      have hv := each_same he
      rw [hv] at h
      obtain ⟨h1, h2⟩ := prefix_free h
      exact ⟨.inl h1, h2.symm⟩
    | true =>
      have hs := hlow rfl
      have hlt : c.toNat < 128 := hs
      rw [short_bytes hs] at he
      generalize hb : UInt8.ofNat c.toNat = b at he
      have hbn : b.toNat = c.toNat := by rw [← hb]; simp; omega
      cases he with
      | cons g1 g2 =>
        cases g2
        obtain ⟨fd, td, e1, _, _⟩ := char_bytes d
        rw [e1] at h
        simp only [List.cons_append, List.cons.injEq, List.nil_append] at h
        have hflt : f.toNat < 128 := by
          unfold sameLetter isLowerLetter at g1
          rcases g1 with g1 | ⟨_, g1⟩
          · rw [g1]; omega
          · omega
        obtain ⟨g3, rfl, g5⟩ := head_short e1 (by rw [h.1]; exact hflt)
        refine ⟨(sameLetter_short (by omega) hbn (by rw [← h.1]; exact g5)).1 g1, by simpa using h.2.symm⟩

/-- Matching bytes implies matching characters. -/
theorem wild_of_glob {ci : Bool} (P : List Char) : ∀ (t : Str) (U : List Char), Conts t → Fair ci P U → ('?' ∈ P → t = []) →
    Glob (sameLetter ci) (enc P) (t ++ enc U) → Wild (SameChar ci) P U := by
  induction P with
  | nil =>
    intro t U ht _ _ h
    generalize hv : t ++ enc U = v at h
    cases h
    cases U with
    | nil => exact .nil
    | cons d U =>
      obtain ⟨f, td, e, _⟩ := char_bytes d
      rw [enc_cons, e] at hv
      simp at hv
  | cons c P ih =>
    intro t U ht hF hq h
    have hF' : ∀ U'', (∀ x ∈ U'', x ∈ U) → Fair ci P U'' := fun U'' hsub =>
      ⟨fun hm x hx => hF.one (List.mem_cons_of_mem _ hm) x (hsub x hx), fun hc x hx => hF.low hc x (List.mem_cons_of_mem _ hx)⟩
    by_cases hstar : c = '*'
    · subst hstar
      have e : enc ('*' :: P) = 42 :: enc P := by rw [enc_cons, short_bytes (by decide)]; rfl
      rw [e] at h
      generalize hp : 42 :: enc P = p at h
      generalize hv : t ++ enc U = v at h
      cases h with
      | nil => cases hp
      | any _ => simp at hp
      | lit _ h2 _ _ => exact absurd (List.cons.inj hp).1.symm h2
      | star w h =>
        obtain ⟨_, rfl⟩ := List.cons.inj hp
        obtain ⟨t', U', U'', g1, rfl, rfl, g4⟩ := cut U t w _ ht hv
        refine .star U' (ih t' U'' g1 (hF' _ fun x hx => by simp [hx]) (fun hm => ?_) h)
        have hm' : '?' ∈ '*' :: P := List.mem_cons_of_mem _ hm
        exact g4 (hq hm') (hF.one hm')
    · by_cases hqm : c = '?'
      · subst hqm
        have e : enc ('?' :: P) = 63 :: enc P := by rw [enc_cons, short_bytes (by decide)]; rfl
        have ht0 := hq List.mem_cons_self
        subst ht0
        rw [e, List.nil_append] at h
        generalize hp : 63 :: enc P = p at h
        generalize hv : enc U = v at h
        cases h with
        | nil => cases hp
        | star w _ => simp at hp
        | lit h2 _ _ _ => exact absurd (List.cons.inj hp).1.symm h2
        | any h =>
          obtain ⟨_, rfl⟩ := List.cons.inj hp
          cases U with
          | nil => simp [enc] at hv
          | cons d U =>
            rw [enc_cons, short_bytes (hF.one List.mem_cons_self d List.mem_cons_self)] at hv
            simp only [List.cons_append, List.nil_append, List.cons.injEq] at hv
            obtain ⟨_, rfl⟩ := hv
            exact .any (ih [] U (by intro b hb; cases hb) (hF' _ fun x hx => List.mem_cons_of_mem _ hx) (fun _ => rfl) h)
      · rw [enc_cons] at h
        obtain ⟨v1, v2, hv, he, hg⟩ := lits _ _ _ (enc_ne hqm hstar) h
        obtain ⟨rfl, d, U2, rfl, hsame, rfl⟩ := lit_step (fun hc => hF.low hc c List.mem_cons_self) ht he hv
        exact .lit hqm hstar hsame (ih [] U2 (by intro b hb; cases hb) (hF' _ fun x hx => List.mem_cons_of_mem _ hx) (fun _ => rfl) hg)

/-- Matching characters implies matching bytes. -/
theorem glob_of_wild {ci : Bool} {P U : List Char} (h : Wild (SameChar ci) P U) (hF : Fair ci P U) :
    Glob (sameLetter ci) (enc P) (enc U) := by
  induction h with
  | nil => exact .nil
  | @any p u c _ ih =>
    have hs := hF.one List.mem_cons_self c List.mem_cons_self
    have e : enc ('?' :: p) = 63 :: enc p := by rw [enc_cons, short_bytes (by decide)]; rfl
    rw [e, enc_cons, short_bytes hs]
    exact .any (ih ⟨fun hm x hx => hF.one (List.mem_cons_of_mem _ hm) x (List.mem_cons_of_mem _ hx), fun hc x hx => hF.low hc x (List.mem_cons_of_mem _ hx)⟩)
  | @star p u w _ ih =>
    have e : enc ('*' :: p) = 42 :: enc p := by rw [enc_cons, short_bytes (by decide)]; rfl
    have e2 : enc (w ++ u) = enc w ++ enc u := by simp [enc]
    rw [e, e2]
    exact .star _ (ih ⟨fun hm x hx => hF.one (List.mem_cons_of_mem _ hm) x (by simp [hx]), fun hc x hx => hF.low hc x (List.mem_cons_of_mem _ hx)⟩)
  | @lit p u pc uc h1 h2 h3 _ ih =>
    rw [enc_cons, enc_cons]
    refine lits_back (enc_ne h1 h2) ?_
      (ih ⟨fun hm x hx => hF.one (List.mem_cons_of_mem _ hm) x (List.mem_cons_of_mem _ hx), fun hc x hx => hF.low hc x (List.mem_cons_of_mem _ hx)⟩)
    rcases h3 with rfl | ⟨hc, hl⟩
    · exact each_refl _
    · subst hc
      have hs := hF.low rfl pc List.mem_cons_self
      have hlt : pc.toNat < 128 := hs
      have hu : Short uc := by
        have := congrArg Char.toNat hl
        rw [toLower_nat, toLower_nat] at this
        show uc.toNat < 128
        split at this <;> split at this <;> omega
      have hult : uc.toNat < 128 := hu
      rw [short_bytes hs, short_bytes hu]
      exact .cons ((sameLetter_short (d := uc) (c := pc) (by simp; omega) (by simp; omega) (by simp; omega)).2 (.inr ⟨rfl, hl⟩)) .nil

theorem glob_iff_wild {ci : Bool} {P U : List Char} (hF : Fair ci P U) : Glob (sameLetter ci) (enc P) (enc U) ↔ Wild (SameChar ci) P U :=
  ⟨fun h => wild_of_glob P [] U (by intro b hb; cases hb) hF (fun _ => rfl) h, fun h => glob_of_wild h hF⟩

end Gofre.Chars
