import Verif.Model.Query
import Verif.Spec.Query

/-! # Escaping and reading back -/

namespace Gofre.OAuth
open Gofre.Spec

theorem byteCases {P : UInt8 → Prop} (h : ∀ n, n < 256 → P (UInt8.ofNat n)) (c : UInt8) : P c := by
  have := h c.toNat c.toNat_lt
  rwa [UInt8.ofNat_toNat] at this

theorem unhex (c : UInt8) : hexVal (upperHex (c >>> 4)) = some (c >>> 4) ∧ hexVal (upperHex (c &&& 15)) = some (c &&& 15) ∧
    (c >>> 4) * 16 + (c &&& 15) = c := by
  revert c; apply byteCases; decide +kernel

theorem unreserved_ne {c : UInt8} (h : unreserved c = true) : c ≠ 37 ∧ c ≠ 43 ∧ c ≠ 38 ∧ c ≠ 61 ∧ c ≠ 35 ∧ c ≠ 63 := by
  revert c
  have : ∀ c, unreserved c = true → c ≠ 37 ∧ c ≠ 43 ∧ c ≠ 38 ∧ c ≠ 61 ∧ c ≠ 35 ∧ c ≠ 63 := by
    apply byteCases; decide +kernel
  exact fun {c} => this c

theorem upperHex_unreserved (c : UInt8) : unreserved (upperHex (c >>> 4)) = true ∧ unreserved (upperHex (c &&& 15)) = true := by
  revert c; apply byteCases; decide +kernel

theorem formDecode_plain {c : UInt8} (h : c ≠ 37) (l : Str) : formDecode (c :: l) = (if c = 43 then 32 else c) :: formDecode l := by
  rw [formDecode]
  intro a b l' hc; exact absurd hc h

/-- Reading escaped text gives the text back. -/
theorem formDecode_escape (s : Str) : formDecode (queryEscape s) = s := by
  induction s with
  | nil => simp [queryEscape, formDecode]
  | cons c l ih =>
    rw [queryEscape]
    split
    · rename_i h
      obtain ⟨h1, h2, _⟩ := unreserved_ne h
      rw [formDecode_plain h1, if_neg h2, ih]
    · split
      · rename_i h; subst h
        rw [formDecode_plain (by decide), if_pos rfl, ih]
      · obtain ⟨h1, h2, h3⟩ := unhex c
        rw [formDecode, h1, h2]
        simp only [h3, ih]

/-- Bytes of escaped text. -/
theorem escape_bytes (s : Str) : ∀ c ∈ queryEscape s, unreserved c = true ∨ c = 43 ∨ c = 37 := by
  induction s with
  | nil => simp [queryEscape]
  | cons c l ih =>
    rw [queryEscape]
    split
    · rename_i h
      intro d hd
      rcases List.mem_cons.1 hd with rfl | hd
      · exact .inl h
      · exact ih d hd
    · split
      · intro d hd
        rcases List.mem_cons.1 hd with rfl | hd
        · exact .inr (.inl rfl)
        · exact ih d hd
      · intro d hd
        obtain ⟨h1, h2⟩ := upperHex_unreserved c
        rcases List.mem_cons.1 hd with rfl | hd
        · exact .inr (.inr rfl)
        · rcases List.mem_cons.1 hd with rfl | hd
          · exact .inl h1
          · rcases List.mem_cons.1 hd with rfl | hd
            · exact .inl h2
            · exact ih d hd

theorem escape_not_mem (s : Str) (c : UInt8) (h : unreserved c = false) (h1 : c ≠ 43) (h2 : c ≠ 37) : c ∉ queryEscape s := by
  intro hm
  rcases escape_bytes s c hm with h3 | h3 | h3
  · rw [h] at h3; cases h3
  · exact h1 h3
  · exact h2 h3

theorem cutEq_append {a : Str} (h : (61 : UInt8) ∉ a) (b : Str) : cutEq (a ++ 61 :: b) = (a, b) := by
  induction a with
  | nil => simp [cutEq]
  | cons c l ih =>
    simp only [List.mem_cons, not_or] at h
    have hc : ¬ c = 61 := fun e => h.1 e.symm
    simp [cutEq, hc, ih h.2]

/-- Reading one encoded pair. -/
theorem pair_read (kv : Str × Str) : (formDecode (cutEq (encodePair kv)).1, formDecode (cutEq (encodePair kv)).2) = kv := by
  rw [encodePair, cutEq_append (escape_not_mem _ _ (by decide) (by decide) (by decide)), formDecode_escape, formDecode_escape]

theorem pair_ne (kv : Str × Str) : encodePair kv ≠ [] := by simp [encodePair]

theorem pair_bytes (kv : Str × Str) : ∀ c ∈ encodePair kv, unreserved c = true ∨ c = 43 ∨ c = 37 ∨ c = 61 := by
  intro c hc
  rcases List.mem_append.1 hc with h | h
  · rcases escape_bytes _ c h with h | h | h
    · exact .inl h
    · exact .inr (.inl h)
    · exact .inr (.inr (.inl h))
  · rcases List.mem_cons.1 h with h | h
    · exact .inr (.inr (.inr h))
    · rcases escape_bytes _ c h with h | h | h
      · exact .inl h
      · exact .inr (.inl h)
      · exact .inr (.inr (.inl h))

theorem pair_no_amp (kv : Str × Str) : (38 : UInt8) ∉ encodePair kv := by
  intro h
  rcases pair_bytes kv _ h with h | h | h | h
  · revert h; decide
  · revert h; decide
  · revert h; decide
  · revert h; decide

theorem formPairs_join (ps : List (Str × Str)) : formPairs (joinWith 38 (ps.map encodePair)) = ps := by
  by_cases hp : ps = []
  · subst hp; decide
  · rw [formPairs, splitOn_joinWith (by simpa using hp) (by
      intro p hm
      obtain ⟨kv, _, rfl⟩ := List.mem_map.1 hm
      exact pair_no_amp kv)]
    have : (ps.map encodePair).filter (· ≠ []) = ps.map encodePair := by
      rw [List.filter_eq_self]
      intro p hm
      obtain ⟨kv, _, rfl⟩ := List.mem_map.1 hm
      simpa using pair_ne kv
    rw [this, List.map_map]
    conv => rhs; rw [← List.map_id ps]
    apply List.map_congr_left
    intro kv _
    exact pair_read kv

theorem joinWith_bytes (P : UInt8 → Prop) (sep : UInt8) (hs : P sep) : ∀ (ps : List Str), (∀ p ∈ ps, ∀ c ∈ p, P c) → ∀ c ∈ joinWith sep ps, P c
  | [], _ => by simp [joinWith]
  | [p], h => by simpa [joinWith] using h
  | p :: q :: ps, h => by
    intro c hc
    rw [joinWith] at hc
    rcases List.mem_append.1 hc with hc | hc
    · exact h p (by simp) c hc
    · rcases List.mem_cons.1 hc with rfl | hc
      · exact hs
      · exact joinWith_bytes P sep hs (q :: ps) (fun x hx => h x (List.mem_cons_of_mem _ hx)) c hc

/-- Bytes of an encoded query. -/
theorem encode_bytes (m : Map Str) : ∀ c ∈ encodeValues m, unreserved c = true ∨ c = 43 ∨ c = 37 ∨ c = 61 ∨ c = 38 := by
  apply joinWith_bytes (fun c => unreserved c = true ∨ c = 43 ∨ c = 37 ∨ c = 61 ∨ c = 38)
  · simp
  · intro p hm c hc
    obtain ⟨kv, _, rfl⟩ := List.mem_map.1 hm
    rcases pair_bytes kv c hc with h | h | h | h
    · exact .inl h
    · exact .inr (.inl h)
    · exact .inr (.inr (.inl h))
    · exact .inr (.inr (.inr (.inl h)))

theorem insertKey_perm (kv : Str × Str) (m : Map Str) : (insertKey kv m).Perm (kv :: m) := by
  induction m with
  | nil => exact .refl _
  | cons e l ih =>
    rw [insertKey]
    split
    · exact .refl _
    · exact (List.Perm.cons e ih).trans (.swap _ _ _)

theorem sortKeys_perm (m : Map Str) : (sortKeys m).Perm m := by
  induction m with
  | nil => exact .refl _
  | cons e l ih => exact (insertKey_perm e _).trans (.cons e ih)

/-- Reading an encoded query gives the pairs back, in some order. -/
theorem formPairs_encode (m : Map Str) : (formPairs (encodeValues m)).Perm m := by
  rw [encodeValues, formPairs_join]
  exact sortKeys_perm m

theorem dropWhile_ne {a : Str} {x : UInt8} (h : x ∉ a) (l : Str) : (a ++ x :: l).dropWhile (· ≠ x) = x :: l := by
  induction a with
  | nil => simp
  | cons c t ih =>
    simp only [List.mem_cons, not_or] at h
    have hc : c ≠ x := fun e => h.1 e.symm
    rw [List.cons_append, List.dropWhile_cons_of_pos (by simpa using hc), ih h.2]

theorem takeWhile_ne {a : Str} {x : UInt8} (h : x ∉ a) (l : Str) : (a ++ x :: l).takeWhile (· ≠ x) = a := by
  induction a with
  | nil => simp
  | cons c t ih =>
    simp only [List.mem_cons, not_or] at h
    have hc : c ≠ x := fun e => h.1 e.symm
    rw [List.cons_append, List.takeWhile_cons_of_pos (by simpa using hc), ih h.2]

theorem takeWhile_all {a : Str} {x : UInt8} (h : x ∉ a) : a.takeWhile (· ≠ x) = a := by
  induction a with
  | nil => rfl
  | cons c t ih =>
    simp only [List.mem_cons, not_or] at h
    have hc : c ≠ x := fun e => h.1 e.symm
    rw [List.takeWhile_cons_of_pos (by simpa using hc), ih h.2]

/-- Query of `endpoint?encoded`. -/
theorem queryOf_encode {e : Str} (h : (63 : UInt8) ∉ e) (m : Map Str) :
    queryOf (e ++ 63 :: encodeValues m) = encodeValues m ∧ beforeQuery (e ++ 63 :: encodeValues m) = e := by
  constructor
  · rw [queryOf, dropWhile_ne h, List.drop_one, List.tail_cons, takeWhile_all]
    intro hc
    rcases encode_bytes m _ hc with h | h | h | h | h <;> revert h <;> decide
  · exact takeWhile_ne h _

end Gofre.OAuth
