import Verif.Model.OAuth
import Verif.Props.Mux
import Verif.Props.Complete
import Verif.Proofs.StarsRoute

/-! # Patterns whose pieces are literals followed by one variable -/

namespace Gofre.Path
open Gofre.Spec Gofre.Mux

theorem splitOn_append_sep (sep : UInt8) (a b : Str) : splitOn sep (a ++ sep :: b) = splitOn sep a ++ splitOn sep b := by
  induction a with
  | nil => simp [splitOn]
  | cons c a ih =>
    simp only [List.cons_append, splitOn]
    split
    · rw [ih]; rfl
    · rw [ih]
      cases h : splitOn sep a with
      | nil => exact absurd h (splitOn_ne_nil _ _)
      | cons u us => rfl

theorem splitOn_length (sep : UInt8) (a : Str) : 1 ≤ (splitOn sep a).length := by
  have := splitOn_ne_nil sep a
  cases h : splitOn sep a with
  | nil => exact absurd h this
  | cons u us => simp

/-- The pieces of a pattern that ends with a piece `v`. -/
theorem pieces_snoc {R v : Str} (hv : v ≠ []) (hs : slash ∉ v) (hR : R = [] ∨ R.head? = some slash) :
    pieces (R ++ slash :: v) = (splitOn slash R).drop 1 ++ [v] := by
  have hsp : splitOn slash v = [v] := splitOn_of_not_mem hs
  have key : splitOn slash (R ++ slash :: v).tail = (splitOn slash R).drop 1 ++ [v] := by
    rcases hR with rfl | hR
    · simp [splitOn, hsp]
    · cases R with
      | nil => simp at hR
      | cons c R =>
        simp only [List.head?_cons, Option.some.injEq] at hR
        subst hR
        simp only [List.cons_append, List.tail_cons]
        rw [splitOn_append_sep, hsp]
        simp [splitOn]
  unfold pieces
  simp only [key]
  rw [if_neg]
  simp [hv]

theorem afterSlash_append (R t : Str) : afterSlash (R ++ slash :: t) = (splitOn slash R).drop 1 ++ splitOn slash t := by
  unfold afterSlash
  rw [splitOn_append_sep, List.drop_append_of_le_length (splitOn_length _ _)]

theorem foldl_push_plain : ∀ (vs st : List Str), (∀ v ∈ vs, v ≠ [] ∧ v ≠ b!"..") → vs.foldl push st = vs.reverse ++ st := by
  intro vs
  induction vs with
  | nil => intro st _; rfl
  | cons v vs ih =>
    intro st h
    have hv := h v (by simp)
    rw [List.foldl_cons, ih _ (fun w hw => h w (by simp [hw]))]
    simp [push, hv.1, hv.2]

theorem normal_plain {vs : List Str} (h : ∀ v ∈ vs, v ≠ [] ∧ v ≠ b!"..") : normal vs = vs := by
  unfold normal
  rw [foldl_push_plain vs [] h]
  simp

/-- How the callback pattern and the redirect path are related. -/
theorem callback_split (pathPrefix base name : Str) :
    ∃ R, OAuth.callbackPattern pathPrefix base = R ++ slash :: b!"{providerName}" ∧
      (resolvePath pathPrefix base ++ slash :: name = R ++ slash :: name ∨
        resolvePath pathPrefix base ++ slash :: name = R ++ slash :: slash :: name) := by
  unfold OAuth.callbackPattern resolvePath
  cases base with
  | cons c base =>
    refine ⟨resolvePath pathPrefix (c :: base), ?_, .inl ?_⟩
    · unfold resolvePath
      by_cases h0 : pathPrefix.length = 0
      · simp [h0]
      · by_cases h1 : pathPrefix.getLast? = some slash <;> by_cases h2 : c = slash <;> simp [h0, h1, h2]
    · rfl
  | nil =>
    by_cases h0 : pathPrefix.length = 0
    · exact ⟨[], by simp [h0], .inl (by simp [h0])⟩
    · rcases List.eq_nil_or_concat pathPrefix with rfl | ⟨q, z, rfl⟩
      · simp at h0
      · by_cases hz : z = slash
        · subst hz
          exact ⟨q, by simp, .inr (by simp)⟩
        · exact ⟨q ++ [z], by simp [hz], .inl (by simp)⟩

theorem foldl_push_count : ∀ (vs st : List Str), (vs.foldl push st).length ≤ st.length + vs.countP (· ≠ []) := by
  intro vs
  induction vs with
  | nil => intro st; simp
  | cons v vs ih =>
    intro st
    rw [List.foldl_cons, List.countP_cons]
    have h1 := ih (push st v)
    have h2 : (push st v).length ≤ st.length + if (decide (v ≠ []) = true) then 1 else 0 := by
      unfold push
      split
      · simp
      · split
        · simp; omega
        · rename_i hv _
          simp [hv]
    omega

theorem fits_of_count {path : Str} (h : (afterSlash path).countP (· ≠ []) ≤ 19) : Fits path := by
  intro pre hp
  unfold normal
  rw [List.length_reverse]
  have h1 := foldl_push_count pre []
  simp only [List.length_nil, Nat.zero_add] at h1
  exact Nat.le_trans h1 (Nat.le_trans hp.sublist.countP_le h)

/-- The segment of the callback that carries the provider. -/
def providerSeg : Segment := { val := b!"{providerName}", kind := .capture, varName := b!"providerName" }

/-- The callback pattern and the request for the redirect path. -/
theorem callback_segments {x : Ext} {ci : Bool} {pathPrefix base name : Str} {p : Pattern}
    (hp : parsePattern x ci (OAuth.callbackPattern pathPrefix base) = .ok p)
    (hlen : (pieces (OAuth.callbackPattern pathPrefix base)).length ≤ 19)
    (hlit : ∀ s ∈ p.segments.dropLast, s.kind = .literal ∧ s.val ≠ b!"..")
    (h1 : name ≠ []) (h2 : slash ∉ name) (h3 : name ≠ b!"..") :
    ∃ ls, p.segments = ls ++ [providerSeg] ∧ (∀ s ∈ ls, s.kind = .literal) ∧
      segmentsOf (resolvePath pathPrefix base ++ slash :: name) = ls.map (·.val) ++ [name] ∧
      Fits (resolvePath pathPrefix base ++ slash :: name) := by
  obtain ⟨R, e1, e2⟩ := callback_split pathPrefix base name
  rw [e1] at hp hlen
  have hne : R ++ slash :: b!"{providerName}" ≠ b!"/" := by
    intro h
    have := congrArg List.length h
    simp at this
  obtain ⟨hsp, _⟩ := Gofre.Props.c05_segments x ci _ p hp hne (by omega)
  have hR : R = [] ∨ R.head? = some slash := by
    obtain ⟨body, hb, _⟩ := hsp.slashed
    cases R with
    | nil => exact .inl rfl
    | cons c R => simp only [List.cons_append, List.cons.injEq] at hb; exact .inr (by simp [hb.1])
  have hpc := pieces_snoc (R := R) (v := b!"{providerName}") (by decide) (by decide) hR
  rw [hpc] at hlen
  have hall := hsp.spelled
  rw [hpc] at hall
  generalize hL : (splitOn slash R).drop 1 = L at *
  obtain ⟨ls, ms, he, ha, hb⟩ := hall.append_inv_left
  cases hb with
  | cons hb hn =>
    cases hn
    rename_i s
    have hs : s = providerSeg := by
      refine Gofre.Props.c06_unambiguous x ci _ s providerSeg hb ?_ (hsp.compile s (by simp [he])) (by simp [providerSeg])
      exact .capture b!"providerName" (by decide) (by decide) (by
        rintro ⟨a, b, h⟩
        have : (42 : UInt8) ∈ b!"{providerName}" := by
          show (42 : UInt8) ∈ 123 :: b!"providerName" ++ [125]
          rw [h]
          simp
        revert this
        decide)
    subst hs
    rw [he, List.dropLast_concat] at hlit
    have hvals : ∀ {vs : List Str} {ss : List Segment}, All2 (Piece ci) vs ss → (∀ s ∈ ss, s.kind = .literal) → vs = ss.map (·.val) ∧ ∀ v ∈ vs, v ≠ [] := by
      intro vs ss h
      induction h with
      | nil => intro _; simp
      | cons h _ ih =>
        intro hl
        have hk := hl _ List.mem_cons_self
        obtain ⟨i1, i2⟩ := ih fun s hs => hl s (by simp [hs])
        cases h <;> simp at hk
        rename_i h0 _ _ _ _
        simp only [List.map_cons, List.mem_cons]
        exact ⟨by rw [← i1], fun v hv => hv.elim (fun e => e ▸ h0) (i2 v)⟩
    obtain ⟨hval, hnn⟩ := hvals ha fun s hs => (hlit s hs).1
    have hplainL : ∀ v ∈ L, v ≠ [] ∧ v ≠ b!".." := by
      intro v hv
      refine ⟨hnn v hv, ?_⟩
      rw [hval] at hv
      obtain ⟨s, hs, rfl⟩ := List.mem_map.1 hv
      exact (hlit s hs).2
    have hplain : ∀ v ∈ L ++ [name], v ≠ [] ∧ v ≠ b!".." := by
      intro v hv
      rcases List.mem_append.1 hv with hv | hv
      · exact hplainL v hv
      · simp only [List.mem_singleton] at hv
        subst hv
        exact ⟨h1, h3⟩
    have hspn : splitOn slash name = [name] := splitOn_of_not_mem h2
    have hspn2 : splitOn slash (slash :: name) = [[], name] := by simp [splitOn, hspn]
    have hcount : L.countP (· ≠ []) ≤ L.length := List.countP_le_length
    simp only [List.length_append, List.length_singleton] at hlen
    refine ⟨ls, he, fun s hs => (hlit s hs).1, ?_, ?_⟩
    · rw [← hval]
      rcases e2 with e2 | e2 <;> rw [e2]
      · rw [segmentsOf, afterSlash_append, hL, hspn, normal_plain hplain]
      · rw [segmentsOf, afterSlash_append, hL, hspn2]
        have := foldl_push_plain L [] hplainL
        unfold normal
        rw [List.foldl_append, this]
        simp [push, h1, h3]
    · rcases e2 with e2 | e2 <;> rw [e2]
      · apply fits_of_count
        rw [afterSlash_append, hL, hspn, List.countP_append]
        simp [h1]
        simp at hcount
        omega
      · apply fits_of_count
        rw [afterSlash_append, hL, hspn2, List.countP_append]
        simp [h1]
        simp at hcount
        omega

theorem callback_describes {x : Ext} {ci : Bool} {ls : List Segment} {name : Str} (h : ∀ s ∈ ls, s.kind = .literal) :
    Describes x ci (ls ++ [providerSeg]) (ls.map (·.val) ++ [name]) := by
  induction ls with
  | nil => exact (describes_one (by decide)).2 ⟨name, [], rfl, trivial, describes_nil.2 rfl⟩
  | cons s ls ih =>
    have hk := h s (by simp)
    exact (describes_one (by rw [hk]; decide)).2 ⟨s.val, _, rfl, by simp [Fit, hk], ih fun t ht => h t (by simp [ht])⟩

theorem callback_value {x : Ext} {ci : Bool} {ls : List Segment} {name : Str} (h : ∀ s ∈ ls, s.kind = .literal) {vs : List Str} {bs : List (List Str)}
    (hb : Layout x ci (ls ++ [providerSeg]) (vs ++ [name]) bs) : valueIn b!"providerName" (ls ++ [providerSeg]) bs = some name := by
  obtain ⟨h1, h2, hlast⟩ := hb
  obtain ⟨b1, b2, rfl, h3, h4⟩ := h1.append_inv_left
  have hv : ∀ (ls : List Segment) (b1 : List (List Str)), (∀ s ∈ ls, s.kind = .literal) → ls.length = b1.length →
      valueIn b!"providerName" (ls ++ [providerSeg]) (b1 ++ b2) = valueIn b!"providerName" [providerSeg] b2 := by
    intro ls
    induction ls with
    | nil => intro b1 _ hl; cases b1 with
      | nil => rfl
      | cons _ _ => simp at hl
    | cons s ls ih =>
      intro b1 hk hl
      cases b1 with
      | nil => simp at hl
      | cons b b1 =>
        simp only [List.cons_append, valueIn]
        rw [if_neg (by rw [hk s (by simp)]; simp)]
        exact ih b1 (fun t ht => hk t (by simp [ht])) (by simpa using hl)
  rw [hv ls b1 h h3.length]
  cases h4 with
  | cons h4 h5 =>
    cases h5
    rename_i b
    have hb1 := h4.1 (by decide)
    match b, hb1 with
    | [u], _ =>
      simp only [List.flatten_append, List.flatten_cons, List.flatten_nil, List.append_nil] at h2
      have := List.append_inj_right' h2 rfl
      simp only [List.cons.injEq, and_true] at this
      simp [valueIn, providerSeg, this]

end Gofre.Path
