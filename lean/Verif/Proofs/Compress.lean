import Verif.Proofs.Passing
import Verif.Proofs.SseLoop
import Verif.Proofs.Text
import Verif.Spec.Compress
import Verif.Proofs.Takes

/-! # Which encoding is chosen -/

namespace Gofre.Response
open Gofre.Http Gofre.Spec

theorem lower_ascii : ∀ {s : Str}, AsciiText s → toLower s = s.map lowerByte := by
  intro s
  induction s using toLower.induct with
  | case1 l ih => intro h; exact absurd (h 0xc4 (by simp)) (by decide)
  | case2 l ih => intro h; exact absurd (h 0xe2 (by simp)) (by decide)
  | case3 c l h1 h2 ih =>
    intro h
    rw [toLower, ih fun b hb => h b (by simp [hb])]
    · rfl
    · exact h1
    · exact h2
  | case4 => intro _; rfl

theorem lower_comma (c : UInt8) : lowerByte c = 44 ↔ c = 44 := by
  have : ∀ n < 256, lowerByte (UInt8.ofNat n) = 44 ↔ UInt8.ofNat n = 44 := by decide +kernel
  have h := this c.toNat c.toNat_lt
  simpa using h

theorem lower_lt (c : UInt8) : lowerByte c < 128 ↔ c < 128 := by
  have : ∀ n < 256, lowerByte (UInt8.ofNat n) < 128 ↔ UInt8.ofNat n < 128 := by decide +kernel
  have h := this c.toNat c.toNat_lt
  simpa using h

theorem lower_blank (c : UInt8) : lowerByte c ∈ ([9, 10, 11, 12, 13, 32] : Str) ↔ c ∈ ([9, 10, 11, 12, 13, 32] : Str) := by
  have : ∀ n < 256, lowerByte (UInt8.ofNat n) ∈ ([9, 10, 11, 12, 13, 32] : Str) ↔ UInt8.ofNat n ∈ ([9, 10, 11, 12, 13, 32] : Str) := by decide +kernel
  have h := this c.toNat c.toNat_lt
  rwa [UInt8.ofNat_toNat] at h

theorem split_lower : ∀ (s : Str), splitOn 44 (s.map lowerByte) = (splitOn 44 s).map (·.map lowerByte)
  | [] => rfl
  | c :: s => by
    simp only [List.map_cons, splitOn, lower_comma, split_lower s]
    split
    · rfl
    · cases h : splitOn 44 s with
      | nil => exact absurd h (splitOn_ne_nil _ _)
      | cons a l => rfl

theorem strip_blank (sps : List Str) (hsp : ∀ sp ∈ sps, AsciiText sp → Blank sp) : ∀ (n : Nat) (s : Str), AsciiText s → ∃ pre, s = pre ++ stripAll sps n s ∧ Blank pre
  | 0, s, _ => ⟨[], rfl, by simp [Blank]⟩
  | n + 1, s, h => by
    simp only [stripAll]
    split
    · rename_i s' hs
      obtain ⟨sp, hm, rfl⟩ := stripOne_some hs
      obtain ⟨pre, hp, hb⟩ := strip_blank sps hsp n s' fun b hb => h b (by simp [hb])
      refine ⟨sp ++ pre, by rw [List.append_assoc, ← hp], fun b hb' => ?_⟩
      rcases List.mem_append.1 hb' with h' | h'
      · exact hsp sp hm (fun b hb => h b (by simp [hb])) b h'
      · exact hb b h'
    · exact ⟨[], rfl, by simp [Blank]⟩

theorem spaces_blank : ∀ sp ∈ spaces, AsciiText sp → Blank sp := by unfold AsciiText Blank; decide
theorem spacesRev_blank : ∀ sp ∈ spaces.map List.reverse, AsciiText sp → Blank sp := by unfold AsciiText Blank; decide

theorem trim_parts {s : Str} (h : AsciiText s) : ∃ pre post, s = pre ++ trimSpace s ++ post ∧ Blank pre ∧ Blank post := by
  obtain ⟨pre, h1, h2⟩ := strip_blank spaces spaces_blank s.length s h
  have ha : AsciiText (trimLeft s) := fun b hb => h b (by rw [h1]; exact List.mem_append_right _ hb)
  obtain ⟨post, h3, h4⟩ := strip_blank (spaces.map List.reverse) spacesRev_blank (trimLeft s).length (trimLeft s).reverse fun b hb => ha b (by simpa using hb)
  refine ⟨pre, post.reverse, ?_, h2, fun b hb => h4 b (by simpa using hb)⟩
  have h5 := congrArg List.reverse h3
  rw [List.reverse_reverse, List.reverse_append] at h5
  have h6 : trimLeft s = trimSpace s ++ post.reverse := h5
  have h7 : s = pre ++ trimLeft s := h1
  rw [List.append_assoc, ← h6]
  exact h7

theorem blank_unlower {s : Str} (h : Blank (s.map lowerByte)) : Blank s := by
  intro b hb
  exact (lower_blank b).1 (h _ (List.mem_map.2 ⟨b, hb, rfl⟩))

theorem ascii_split {s e : Str} (h : AsciiText s) (he : e ∈ splitOn 44 s) : AsciiText e := by
  have hmem : ∀ (s : Str) (e : Str), e ∈ splitOn 44 s → ∀ b ∈ e, b ∈ s := by
    intro s
    induction s with
    | nil => intro e he b hb; simp [splitOn] at he; subst he; exact hb
    | cons c s ih =>
      intro e he b hb
      simp only [splitOn] at he
      split at he
      · rcases List.mem_cons.1 he with rfl | he
        · exact absurd hb (by simp)
        · exact List.mem_cons_of_mem _ (ih e he b hb)
      · split at he
        · rw [List.mem_singleton.1 he] at hb
          rw [List.mem_singleton.1 hb]; simp
        · rename_i a l hs
          rcases List.mem_cons.1 he with rfl | he
          · rcases List.mem_cons.1 hb with rfl | hb
            · simp
            · exact List.mem_cons_of_mem _ (ih a (by rw [hs]; simp) b hb)
          · exact List.mem_cons_of_mem _ (ih e (by rw [hs]; simp [he]) b hb)
  exact fun b hb => h b (hmem s e he b hb)

theorem listed_of {accept name : Str} (ha : AsciiText accept) (h : name ∈ (splitOn 44 (toLower accept)).map trimSpace) : Lists accept name := by
  rw [lower_ascii ha, split_lower, List.map_map] at h
  obtain ⟨e, he, hn⟩ := List.mem_map.1 h
  have hn : trimSpace (e.map lowerByte) = name := hn
  have hae : AsciiText (e.map lowerByte) := by
    intro b hb
    obtain ⟨c, hc, rfl⟩ := List.mem_map.1 hb
    exact (lower_lt c).2 (ascii_split ha he c hc)
  obtain ⟨pre, post, h1, h2, h3⟩ := trim_parts hae
  rw [hn] at h1
  obtain ⟨l1, l2, rfl, e1, e2⟩ := List.map_eq_append_iff.1 h1
  obtain ⟨l3, l4, rfl, e3, e4⟩ := List.map_eq_append_iff.1 e1
  subst e3 e2
  exact ⟨_, he, l3, l4, l2, rfl, blank_unlower h2, blank_unlower h3, e4⟩

theorem alg_listed {accept : Str} {a : Alg} (ha : AsciiText accept) (h : algFor accept = some a) : Lists accept (algName a) ∨ Lists accept b!"compress" := by
  unfold algFor at h
  simp only at h
  split at h
  · rename_i h1
    obtain ⟨e, he, h2⟩ := List.any_eq_true.1 h1
    obtain rfl := Option.some.inj h
    simp only [Bool.or_eq_true, beq_iff_eq] at h2
    rcases h2 with rfl | rfl
    · exact .inl (listed_of ha he)
    · exact .inr (listed_of ha he)
  · split at h
    · rename_i h1
      obtain ⟨e, he, h2⟩ := List.any_eq_true.1 h1
      obtain rfl := Option.some.inj h
      rw [beq_iff_eq] at h2
      subst h2
      exact .inl (listed_of ha he)
    · exact absurd h (by simp)

theorem stripAll_blank (sps : List Str) (hsps : ∀ b ∈ ([9, 10, 11, 12, 13, 32] : Str), ∀ s, stripOne sps (b :: s) = some s) : ∀ (pre t : Str) (n : Nat), Blank pre → pre.length ≤ n →
    (∀ sp ∈ sps, ¬ sp <+: t) → stripAll sps n (pre ++ t) = t
  | [], t, n, _, _, ht => stripAll_id sps n t ht
  | b :: pre, t, n, hb, hn, ht => by
    cases n with
    | zero => simp at hn
    | succ n =>
      simp only [List.cons_append, stripAll, hsps b (hb b (by simp))]
      exact stripAll_blank sps hsps pre t n (fun b h => hb b (by simp [h])) (by simpa using hn) ht

theorem spaces_one : ∀ b ∈ ([9, 10, 11, 12, 13, 32] : Str), ∀ s, stripOne spaces (b :: s) = some s := by
  intro b hb s
  simp only [List.mem_cons, List.not_mem_nil, or_false] at hb
  rcases hb with rfl | rfl | rfl | rfl | rfl | rfl <;> simp [stripOne, spaces, List.findSome?]

theorem spacesRev_one : ∀ b ∈ ([9, 10, 11, 12, 13, 32] : Str), ∀ s, stripOne (spaces.map List.reverse) (b :: s) = some s := by
  intro b hb s
  simp only [List.mem_cons, List.not_mem_nil, or_false] at hb
  rcases hb with rfl | rfl | rfl | rfl | rfl | rfl <;> simp [stripOne, spaces, List.findSome?]

/-- Trimming removes blanks around a name. -/
theorem trim_blank {pre mid post : Str} (h1 : Blank pre) (h2 : Blank post) (hne : mid ≠ []) (ha : ∀ sp ∈ spaces, sp.head? ≠ mid.head?)
    (hz : ∀ sp ∈ spaces.map List.reverse, sp.head? ≠ mid.reverse.head?) : trimSpace (pre ++ mid ++ post) = mid := by
  have start : ∀ (sps : List Str) (m t : Str), m ≠ [] → (∀ sp ∈ sps, sp ≠ []) → (∀ sp ∈ sps, sp.head? ≠ m.head?) → ∀ sp ∈ sps, ¬ sp <+: m ++ t := by
    intro sps m t hm hn h sp hsp hp
    cases m with
    | nil => exact hm rfl
    | cons b m =>
      cases hx : sp with
      | nil => exact hn sp hsp hx
      | cons d sp' =>
        rw [hx, List.cons_append, List.cons_prefix_cons] at hp
        have := h sp hsp
        rw [hx] at this
        simp [hp.1] at this
  have hl : trimLeft (pre ++ mid ++ post) = mid ++ post := by
    unfold trimLeft
    rw [List.append_assoc]
    exact stripAll_blank spaces spaces_one pre _ _ h1 (by simp) (start spaces mid post hne spaces_ne_nil ha)
  unfold trimSpace
  rw [hl]
  unfold trimRight
  rw [List.reverse_append, stripAll_blank (spaces.map List.reverse) spacesRev_one post.reverse mid.reverse _ (fun b hb => h2 b (by simpa using hb)) (by simp)
    (by simpa using start (spaces.map List.reverse) mid.reverse [] (by simpa using hne) spacesRev_ne_nil hz), List.reverse_reverse]

theorem mem_of_listed {accept name : Str} (ha : AsciiText accept) (hne : name ≠ []) (h1 : ∀ sp ∈ spaces, sp.head? ≠ name.head?)
    (h2 : ∀ sp ∈ spaces.map List.reverse, sp.head? ≠ name.reverse.head?) (h : Lists accept name) : name ∈ (splitOn 44 (toLower accept)).map trimSpace := by
  obtain ⟨e, he, pre, mid, post, rfl, hb1, hb2, rfl⟩ := h
  rw [lower_ascii ha, split_lower, List.map_map]
  refine List.mem_map.2 ⟨_, he, ?_⟩
  show trimSpace ((pre ++ mid ++ post).map lowerByte) = _
  rw [List.map_append, List.map_append]
  have lb : ∀ {s : Str}, Blank s → Blank (s.map lowerByte) := by
    intro s hs b hb
    obtain ⟨x, hx, rfl⟩ := List.mem_map.1 hb
    exact (lower_blank x).2 (hs x hx)
  exact trim_blank (lb hb1) (lb hb2) hne h1 h2

/-- Which encoding is used, for every header. -/
theorem alg_exact (accept : Str) :
    (algFor accept = some .gzip ↔ Takes accept b!"gzip" ∨ Takes accept b!"compress") ∧
    (algFor accept = some .deflate ↔ Takes accept b!"deflate" ∧ ¬ (Takes accept b!"gzip" ∨ Takes accept b!"compress")) ∧
    (algFor accept = none ↔ ¬ Takes accept b!"gzip" ∧ ¬ Takes accept b!"compress" ∧ ¬ Takes accept b!"deflate") := by
  have g := takes_iff (accept := accept) (n := b!"gzip") (by decide)
  have k := takes_iff (accept := accept) (n := b!"compress") (by decide)
  have d := takes_iff (accept := accept) (n := b!"deflate") (by decide)
  have e1 : ((splitOn 44 (toLower accept)).map trimSpace).any (fun e => e == b!"gzip" || e == b!"compress") = true ↔ Takes accept b!"gzip" ∨ Takes accept b!"compress" := by
    rw [g, k, List.any_eq_true]
    constructor
    · rintro ⟨e, he, h⟩
      simp only [Bool.or_eq_true, beq_iff_eq] at h
      rcases h with rfl | rfl
      · exact .inl he
      · exact .inr he
    · rintro (h | h)
      · exact ⟨_, h, by simp⟩
      · exact ⟨_, h, by simp⟩
  have e2 : ((splitOn 44 (toLower accept)).map trimSpace).any (fun e => e == b!"deflate") = true ↔ Takes accept b!"deflate" := by
    rw [d, List.any_eq_true]
    constructor
    · rintro ⟨e, he, h⟩
      rw [beq_iff_eq] at h
      exact h ▸ he
    · intro h
      exact ⟨_, h, by simp⟩
  unfold algFor
  dsimp only
  generalize ((splitOn 44 (toLower accept)).map trimSpace).any (fun e => e == b!"gzip" || e == b!"compress") = A at e1 ⊢
  generalize ((splitOn 44 (toLower accept)).map trimSpace).any (fun e => e == b!"deflate") = B at e2 ⊢
  clear g k d
  generalize Takes accept b!"gzip" = G at *
  generalize Takes accept b!"compress" = K at *
  generalize Takes accept b!"deflate" = D at *
  cases A <;> cases B <;> grind

theorem has_encoding {env : Env} (he : Orders env) {req : RReq} {name : Str} : ∀ (r : Resp) (drop : Bool), Passes req b!"Content-Encoding" r →
    Absent (r.headers.getD []) b!"Content-Encoding" → BlockHas env (· = [name]) b!"Content-Encoding" (fun H => H b!"Content-Encoding" = [name]) drop r := by
  have main : ∀ (h : HeadResp) (drop : Bool), Absent (h.headers.getD []) b!"Content-Encoding" → ∀ H : Header, H b!"Content-Encoding" = [name] →
      blockOf env (HeadResp.without drop h) H b!"Content-Encoding" = [name] := fun h drop ha H hH =>
    ((block_ok he (HeadResp.without drop h) H).others _ (absent_without ha) (by decide) (by decide) (by decide)).trans hH
  intro r
  induction r with
  | plain h => intro drop _ ha H hH; exact main h drop ha H hH
  | text h => intro drop _ ha H hH; exact main h drop ha H hH
  | json h => intro drop _ ha H hH; exact main h drop ha H hH
  | raw h => intro drop _ ha H hH; exact main h drop ha H hH
  | stream h => intro drop _ ha H hH; exact main h drop ha H hH
  | template h => intro drop _ ha H hH; exact main h drop ha H hH
  | sse h => intro drop _ ha H hH; exact main h drop ha H hH
  | redirect => intro _ hp; exact hp.elim
  | hijack => intro _ hp; exact hp.elim
  | adaptor hs ks ops =>
    intro drop _ ha H hH
    show customHeaders env _ _ b!"Content-Encoding" = _
    rw [custom_absent he (absent_without (hs := hs) ha), cookie_other (by decide), hH]
  | compress l r ih => intro drop hp ha; exact ⟨ih drop hp ha, ih true hp ha⟩

theorem alg_chosen (accept : Str) (a : Alg) : algFor accept = some a ↔ Chosen accept a := by
  obtain ⟨g, d, _⟩ := alg_exact accept
  cases a
  · exact g
  · exact d

theorem alg_understood (accept : Str) : algFor accept = none ↔ ¬ Understood accept := by
  rw [(alg_exact accept).2.2]
  simp [Understood]

theorem understood_alg {accept : Str} (h : Understood accept) : ∃ a, algFor accept = some a := by
  cases hal : algFor accept with
  | none => exact absurd h ((alg_understood accept).1 hal)
  | some a => exact ⟨a, rfl⟩

instance (accept : Str) (a : Alg) : Decidable (Chosen accept a) := decidable_of_iff _ (alg_chosen accept a)

instance (accept : Str) : Decidable (Understood accept) := decidable_of_iff (algFor accept ≠ none) (by
  rw [Ne, alg_understood]
  exact Classical.not_not)

/-- For ASCII headers this is what the standard says. -/
theorem takes_ascii {accept name : Str} (ha : AsciiText accept) (hn : ∀ c ∈ name, 97 ≤ c ∧ c ≤ 122) (hne : name ≠ []) (h1 : ∀ sp ∈ spaces, sp.head? ≠ name.head?)
    (h2 : ∀ sp ∈ spaces.map List.reverse, sp.head? ≠ name.reverse.head?) : Takes accept name ↔ Lists accept name := by
  rw [takes_iff hn]
  exact ⟨listed_of ha, mem_of_listed ha hne h1 h2⟩

end Gofre.Response
