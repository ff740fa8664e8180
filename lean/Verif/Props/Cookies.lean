import Verif.Spec.Cookies
import Verif.Proofs.Passing

/-! # C64, C65: cookies and error messages -/

namespace Gofre.Props
open Gofre.Http Gofre.Response Gofre.Spec

theorem split_first {x : UInt8} : ∀ {a b p q : Str}, x ∉ a → x ∉ b → a ++ x :: p = b ++ x :: q → a = b ∧ p = q
  | [], [], _, _, _, _, h => ⟨rfl, (List.cons.inj h).2⟩
  | [], y :: b, _, _, _, hb, h => by
    have := (List.cons.inj h).1
    exact absurd (List.mem_cons.2 (.inl this)) hb
  | y :: a, [], _, _, ha, _, h => by
    have := (List.cons.inj h).1
    exact absurd (List.mem_cons.2 (.inl this.symm)) ha
  | y :: a, z :: b, _, _, ha, hb, h => by
    have h1 := List.cons.inj h
    have := split_first (fun h => ha (List.mem_cons_of_mem _ h)) (fun h => hb (List.mem_cons_of_mem _ h)) h1.2
    exact ⟨by rw [h1.1, this.1], this.2⟩

theorem split_last {x : UInt8} {a b p q : Str} (hp : x ∉ p) (hq : x ∉ q) (h : a ++ x :: p = b ++ x :: q) : a = b ∧ p = q := by
  have h := congrArg List.reverse h
  simp only [List.reverse_append, List.reverse_cons, List.append_assoc] at h
  have := split_first (by simpa using hp) (by simpa using hq) h
  exact ⟨List.reverse_inj.1 this.2, List.reverse_inj.1 this.1⟩

theorem key_inj {a b : Cookie} (ha : NoColon a) (hb : NoColon b) : cookieKey a = cookieKey b ↔ SameCookie a b := by
  constructor
  · intro h
    have h1 := split_first ha.1 hb.1 h
    have h2 := split_last ha.2 hb.2 h1.2
    exact ⟨h1.1, h2.1, h2.2⟩
  · rintro ⟨h1, h2, h3⟩
    simp only [cookieKey, h1, h2, h3]

theorem addCookies_append : ∀ (m : Map Cookie) (l l' : List (Option Cookie)), addCookies m (l ++ l') = addCookies (addCookies m l) l'
  | _, [], _ => rfl
  | m, none :: l, l' => addCookies_append m l l'
  | m, some _ :: l, l' => addCookies_append _ l l'

theorem isMap_add : ∀ (l : List (Option Cookie)) (m : Map Cookie), IsMap m → IsMap (addCookies m l)
  | [], _, h => h
  | none :: l, m, h => isMap_add l m h
  | some _ :: l, _, h => isMap_add l _ (isMap_set h)

/-- The entries after adding cookies: the old ones whose key is not used, and the last of each key. -/
theorem mem_add : ∀ (l : List (Option Cookie)) (m : Map Cookie), IsMap m → ∀ (s : Str) (k : Cookie), (s, k) ∈ addCookies m l ↔
    ((s, k) ∈ m ∧ ∀ k', some k' ∈ l → cookieKey k' ≠ s) ∨ s = cookieKey k ∧ ∃ pre post, l = pre ++ some k :: post ∧ ∀ k', some k' ∈ post → cookieKey k' ≠ cookieKey k
  | [], m, _, s, k => by simp [addCookies]
  | none :: l, m, hm, s, k => by
    rw [addCookies, mem_add l m hm]
    constructor
    · rintro (⟨h1, h2⟩ | ⟨h1, pre, post, h2, h3⟩)
      · exact .inl ⟨h1, fun k' h => h2 k' (by simpa using h)⟩
      · exact .inr ⟨h1, none :: pre, post, by rw [h2]; rfl, h3⟩
    · rintro (⟨h1, h2⟩ | ⟨h1, pre, post, h2, h3⟩)
      · exact .inl ⟨h1, fun k' h => h2 k' (List.mem_cons_of_mem _ h)⟩
      · cases pre with
        | nil => simp at h2
        | cons p pre => exact .inr ⟨h1, pre, post, (List.cons.inj h2).2, h3⟩
  | some c :: l, m, hm, s, k => by
    rw [addCookies, mem_add l _ (isMap_set hm), mem_set hm]
    constructor
    · rintro (⟨⟨h1, h2⟩ | ⟨h1, h2⟩, h3⟩ | ⟨h1, pre, post, h2, h3⟩)
      · subst h2
        exact .inr ⟨h1, [], l, rfl, fun k' h => h1 ▸ h3 k' h⟩
      · refine .inl ⟨h2, fun k' h => ?_⟩
        rcases List.mem_cons.1 h with h | h
        · obtain rfl := Option.some.inj h; exact fun h' => h1 h'.symm
        · exact h3 k' h
      · exact .inr ⟨h1, some c :: pre, post, by rw [h2]; rfl, h3⟩
    · rintro (⟨h1, h2⟩ | ⟨h1, pre, post, h2, h3⟩)
      · exact .inl ⟨.inr ⟨fun h => h2 c (List.mem_cons_self ..) h.symm, h1⟩, fun k' h => h2 k' (List.mem_cons_of_mem _ h)⟩
      · cases pre with
        | nil =>
          have := List.cons.inj h2
          obtain rfl := Option.some.inj this.1
          obtain rfl := this.2
          exact .inl ⟨.inl ⟨h1, rfl⟩, fun k' h => h1 ▸ h3 k' h⟩
        | cons p pre => exact .inr ⟨h1, pre, post, (List.cons.inj h2).2, h3⟩

/-- C64 for names and domains without a colon: after adding any cookies to an empty set, at once or one
after another, it has exactly the last of each name, path and domain. -/
theorem c64_last_partial {l : List (Option Cookie)} (h : ∀ k, some k ∈ l → NoColon k) (k : Cookie) :
    (∃ s, (s, k) ∈ addCookies [] l) ↔ LastOf l k := by
  constructor
  · rintro ⟨s, hs⟩
    rcases (mem_add l [] List.Pairwise.nil s k).1 hs with ⟨h1, _⟩ | ⟨_, pre, post, rfl, h3⟩
    · exact absurd h1 (by simp)
    · refine ⟨pre, post, rfl, fun k' hk' hc => h3 k' hk' ((key_inj (h k' ?_) (h k ?_)).2 hc)⟩
      · simp [hk']
      · simp
  · rintro ⟨pre, post, rfl, h3⟩
    refine ⟨cookieKey k, (mem_add _ [] List.Pairwise.nil _ k).2 (.inr ⟨rfl, pre, post, rfl, fun k' hk' hc => h3 k' hk' ((key_inj (h k' ?_) (h k ?_)).1 hc)⟩)⟩
    · simp [hk']
    · simp

/-- C64: no two cookies of the set have one name, path and domain. -/
theorem c64_distinct (l : List (Option Cookie)) {s s' : Str} {k k' : Cookie} (h1 : (s, k) ∈ addCookies [] l) (h2 : (s', k') ∈ addCookies [] l)
    (h : SameCookie k k') : k = k' ∧ s = s' := by
  have key : ∀ {s k}, (s, k) ∈ addCookies [] l → s = cookieKey k := by
    intro s k hk
    rcases (mem_add l [] List.Pairwise.nil s k).1 hk with ⟨h1, _⟩ | ⟨h1, _⟩
    · exact absurd h1 (by simp)
    · exact h1
  have hs : s = s' := by
    obtain ⟨a, b, d⟩ := h
    rw [key h1, key h2]; simp only [cookieKey, a, b, d]
  subst hs
  have hm : IsMap (addCookies [] l) := isMap_add l [] List.Pairwise.nil
  refine ⟨?_, rfl⟩
  generalize addCookies [] l = m at h1 h2 hm
  induction m with
  | nil => simp at h1
  | cons x m ih =>
    have hm' : x.1 ∉ m.map (·.1) ∧ IsMap m := by simpa [IsMap] using hm
    rcases List.mem_cons.1 h1 with h1 | h1 <;> rcases List.mem_cons.1 h2 with h2 | h2
    · rw [← h1] at h2; exact (Prod.mk.inj h2).2.symm
    · exact absurd (List.mem_map.2 ⟨_, h2, by rw [← h1]⟩) hm'.1
    · exact absurd (List.mem_map.2 ⟨_, h1, by rw [← h2]⟩) hm'.1
    · exact ih h1 h2 hm'.2

/-- C64: adding in several calls is adding in one. -/
theorem c64_calls (l l' : List (Option Cookie)) : addCookies (addCookies [] l) l' = addCookies [] (l ++ l') := (addCookies_append [] l l').symm

/-- C64 fails when a path and a domain have colons. -/
theorem c64_violated : ∃ k k' : Cookie, ¬ SameCookie k k' ∧ ¬ ∃ s, (s, k) ∈ addCookies [] [some k, some k'] :=
  ⟨{ name := b!"n", path := b!"/x:y" }, { name := b!"n", path := b!"/x", domain := b!"y:" }, fun h => absurd h.2.1 (by decide), by
    rintro ⟨s, h⟩
    have h := List.mem_singleton.1 h
    exact absurd (Prod.mk.inj h).2 (by decide)⟩

example : LastOf [some { name := b!"a", value := b!"1" }, none, some { name := b!"a", value := b!"2" }, some { name := b!"a", path := b!"/x:y", value := b!"3" }] { name := b!"a", value := b!"2" } :=
  ⟨[some { name := b!"a", value := b!"1" }, none], [some { name := b!"a", path := b!"/x:y", value := b!"3" }], rfl, by
    intro k' h hc
    obtain rfl := Option.some.inj (List.mem_singleton.1 h)
    exact absurd hc.2.1 (by decide)⟩
example : NoColon { name := b!"a", path := b!"/x:y" } := ⟨by decide, by decide⟩

/-- C65 for messages that begin with an ASCII character. -/
theorem c65_ascii_partial {b : UInt8} {l : Str} (h : b < 128) : ∃ u, errorText (b :: l) = u :: l ∧ Upper b u := by
  refine ⟨upperByte b, by simp [errorText, upperOne, h], ?_⟩
  unfold Upper upperByte
  split
  · rename_i h
    refine .inr ⟨by simpa [UInt8.le_iff_toNat_le] using h, ?_⟩
    have h : 97 ≤ b.toNat := by simpa [UInt8.le_iff_toNat_le] using h.1
    rw [UInt8.toNat_sub_of_le _ _ (UInt8.le_iff_toNat_le.2 (by simp; omega))]
    simp; omega
  · rename_i h
    refine .inl ⟨?_, rfl⟩
    simp [UInt8.le_iff_toNat_le] at h
    omega

/-- C65: an empty message stays empty. -/
theorem c65_empty : errorText [] = [] := rfl

example : errorText b!"über" ≠ b!"Über" ∧ errorText b!"not found" = b!"Not found" := by decide

/-- C65 fails for every message that begins with another character: its first byte is lost, and what
is left of the character stays. -/
theorem c65_violated_never {b : UInt8} {l : Str} (h : ¬ b < 128) : errorText (b :: l) = b!"�" ++ l := by
  simp [errorText, upperOne, h]

/-- C65 fails for é. -/
theorem c65_violated : errorText b!"école" = [0xef, 0xbf, 0xbd, 0xa9] ++ b!"cole" := by decide

end Gofre.Props
