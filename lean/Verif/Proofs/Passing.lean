import Verif.Proofs.Response

/-! # Headers and cookies added to a response -/

namespace Gofre.Response
open Gofre.Http Gofre.Spec

theorem mem_set {α} {k : Str} {v : α} : ∀ {m : Map α}, IsMap m → ∀ {k' v'}, (k', v') ∈ m.set k v ↔ (k' = k ∧ v' = v) ∨ (k' ≠ k ∧ (k', v') ∈ m)
  | [], _, k', v' => by simp [Map.set]
  | (a, b) :: m, hm, k', v' => by
    have hm' : a ∉ m.map (·.1) ∧ IsMap m := by simpa [IsMap] using hm
    unfold Map.set
    split
    · rename_i h
      subst h
      simp only [List.mem_cons, Prod.mk.injEq]
      constructor
      · rintro (h | h)
        · exact .inl h
        · exact .inr ⟨fun e => hm'.1 (List.mem_map.2 ⟨_, h, e⟩), .inr h⟩
      · rintro (h | ⟨h1, h2 | h2⟩)
        · exact .inl h
        · exact absurd h2.1 h1
        · exact .inr h2
    · rename_i h
      simp only [List.mem_cons, Prod.mk.injEq, mem_set hm'.2]
      constructor
      · rintro (⟨rfl, rfl⟩ | h1 | h1)
        · exact .inr ⟨h, .inl ⟨rfl, rfl⟩⟩
        · exact .inl h1
        · exact .inr ⟨h1.1, .inr h1.2⟩
      · rintro (h1 | ⟨h1, h2 | h2⟩)
        · exact .inr (.inl h1)
        · exact .inl h2
        · exact .inr (.inr ⟨h1, h2⟩)

theorem isMap_set {α} {k : Str} {v : α} : ∀ {m : Map α}, IsMap m → IsMap (m.set k v)
  | [], _ => by simp [IsMap, Map.set]
  | (a, b) :: m, hm => by
    have hm' : a ∉ m.map (·.1) ∧ IsMap m := by simpa [IsMap] using hm
    unfold Map.set
    split
    · rename_i h
      subst h
      simpa [IsMap] using hm
    · rename_i h
      have hi := isMap_set (k := k) (v := v) hm'.2
      unfold IsMap at hi ⊢
      rw [List.map_cons, List.nodup_cons]
      refine ⟨?_, hi⟩
      intro h2
      obtain ⟨⟨x, y⟩, h3, h4⟩ := List.mem_map.1 h2
      rcases (mem_set hm'.2).1 h3 with h5 | h5
      · exact h (h4.symm.trans h5.1)
      · exact hm'.1 (List.mem_map.2 ⟨_, h5.2, h4⟩)

theorem field_set {m : Map Str} (hm : IsMap m) {k v : Str} (ho : ∀ k' v', (k', v') ∈ m → k' ≠ k → ¬ SameField k' k) :
    Field (m.set k v) k v := by
  refine ⟨(mem_set hm).2 (.inl ⟨rfl, rfl⟩), fun k' v' hk hc => ?_⟩
  rcases (mem_set hm).1 hk with h | h
  · exact h.2
  · exact absurd hc (ho k' v' h.2 h.1)

theorem field_without {hs : Option (Map Str)} {drop : Bool} {k v : Str} (hk : k ≠ b!"Accept-Encoding") (h : Field (hs.getD []) k v) :
    Field ((without drop hs).getD []) k v := by
  cases hs with
  | none => exact absurd h.1 (by simp)
  | some m =>
    cases drop with
    | false => exact h
    | true =>
      refine ⟨List.mem_filter.2 ⟨h.1, by simpa using hk⟩, fun k' v' hm => h.2 k' v' (List.mem_filter.1 hm).1⟩

theorem absent_without {hs : Option (Map Str)} {drop : Bool} {key : Str} (h : Absent (hs.getD []) key) : Absent ((without drop hs).getD []) key := by
  cases hs with
  | none => cases drop <;> exact h
  | some m =>
    cases drop with
    | false => exact h
    | true => exact fun k v hm => h k v (List.mem_filter.1 hm).1

theorem passes_mapHeaders {req : RReq} {key : Str} {f : Map Str → Map Str} : ∀ (r : Resp), Passes req key r → Passes req key (r.mapHeaders f)
  | .plain _, h | .text _ _, h | .json _ _, h | .raw _ _, h | .stream _ _, h | .template _ _, h | .sse _ _, h
  | .adaptor _ _ _, h => h
  | .redirect _ _, h | .hijack, h => h.elim
  | .compress _ r, h => passes_mapHeaders r h

theorem passes_mapCookies {req : RReq} {key : Str} {f : Map Cookie → Map Cookie} : ∀ (r : Resp), Passes req key r → Passes req key (r.mapCookies f)
  | .plain _, h | .text _ _, h | .json _ _, h | .raw _ _, h | .stream _ _, h | .template _ _, h | .sse _ _, h
  | .adaptor _ _ _, h => h
  | .redirect _ _, h | .hijack, h => h.elim
  | .compress _ r, h => passes_mapCookies r h

variable {env : Env}

theorem has_header (he : Orders env) {req : RReq} {k v : Str} (hk : k ≠ b!"Accept-Encoding")
    (hv : v ≠ [] ∨ (¬ SameField k b!"Content-Type" ∧ ¬ SameField k b!"X-Content-Type-Options")) :
    ∀ (r : Resp) (drop : Bool), Passes req (canonicalKey k) r → IsMap (r.headers.getD []) →
      (∀ k' v', (k', v') ∈ r.headers.getD [] → k' ≠ k → ¬ SameField k' k) →
      BlockHas env (· = [v]) (canonicalKey k) (fun _ => True) drop (r.mapHeaders (Map.set · k v)) := by
  have main : ∀ (h : HeadResp) (drop : Bool), IsMap (h.headers.getD []) → (∀ k' v', (k', v') ∈ h.headers.getD [] → k' ≠ k → ¬ SameField k' k) →
      ∀ H, blockOf env (HeadResp.without drop { h with headers := some ((h.headers.getD []).set k v) }) H (canonicalKey k) = [v] := fun h drop hm ho H =>
    (block_ok he _ H).custom k v (field_without (hs := some ((h.headers.getD []).set k v)) hk (field_set hm ho)) hv k (.inl rfl)
  intro r
  induction r with
  | plain h => intro drop _ hm ho H _; exact main h drop hm ho H
  | text h => intro drop _ hm ho H _; exact main h drop hm ho H
  | json h => intro drop _ hm ho H _; exact main h drop hm ho H
  | raw h => intro drop _ hm ho H _; exact main h drop hm ho H
  | stream h => intro drop _ hm ho H _; exact main h drop hm ho H
  | template h => intro drop _ hm ho H _; exact main h drop hm ho H
  | sse h => intro drop _ hm ho H _; exact main h drop hm ho H
  | redirect => intro _ hp; exact hp.elim
  | hijack => intro _ hp; exact hp.elim
  | adaptor hs ks ops => intro drop _ hm ho H _; exact custom_field he (field_without hk (field_set hm ho))
  | compress l r ih => intro drop hp hm ho; exact ⟨ih drop hp hm ho, ih true hp hm ho⟩

theorem has_cookie (he : Orders env) {req : RReq} {k : Cookie} (ht : env.cookieText k ≠ []) :
    ∀ (r : Resp) (drop : Bool), Passes req b!"Set-Cookie" r → IsMap (r.cookies.getD []) → Absent (r.headers.getD []) b!"Set-Cookie" →
      BlockHas env (env.cookieText k ∈ ·) b!"Set-Cookie" (fun _ => True) drop (r.mapCookies (addCookies · [some k])) := by
  have hin : ∀ {m : Map Cookie}, IsMap m → env.cookieText k ∈ cookieTexts env (addCookies m [some k]) := by
    intro m hm
    refine List.mem_filter.2 ⟨List.mem_map.2 ⟨(cookieKey k, k), (mem_set hm).2 (.inl ⟨rfl, rfl⟩), rfl⟩, by simpa using ht⟩
  have main : ∀ (h : HeadResp) (drop : Bool), IsMap (h.cookies.getD []) → Absent (h.headers.getD []) b!"Set-Cookie" →
      ∀ H, env.cookieText k ∈ blockOf env (HeadResp.without drop { h with cookies := some (addCookies (h.cookies.getD []) [some k]) }) H b!"Set-Cookie" := by
    intro h drop hm ha H
    obtain ⟨l, h1, h2⟩ := (block_ok he (HeadResp.without drop { h with cookies := some (addCookies (h.cookies.getD []) [some k]) }) H).cookies (absent_without ha)
    rw [h1]
    exact List.mem_append_right _ (h2.mem_iff.2 (hin hm))
  intro r
  induction r with
  | plain h => intro drop _ hm ho H _; exact main h drop hm ho H
  | text h => intro drop _ hm ho H _; exact main h drop hm ho H
  | json h => intro drop _ hm ho H _; exact main h drop hm ho H
  | raw h => intro drop _ hm ho H _; exact main h drop hm ho H
  | stream h => intro drop _ hm ho H _; exact main h drop hm ho H
  | template h => intro drop _ hm ho H _; exact main h drop hm ho H
  | sse h => intro drop _ hm ho H _; exact main h drop hm ho H
  | redirect => intro _ hp; exact hp.elim
  | hijack => intro _ hp; exact hp.elim
  | adaptor hs ks ops =>
    intro drop _ hm ho H _
    show _ ∈ customHeaders env _ _ b!"Set-Cookie"
    rw [custom_absent he (absent_without (hs := hs) ho)]
    obtain ⟨l, h1, h2⟩ := cookie_texts he (ks := some (addCookies (ks.getD []) [some k])) (h := H)
    rw [h1]
    exact List.mem_append_right _ (h2.mem_iff.2 (hin hm))
  | compress l r ih => intro drop hp hm ho; exact ⟨ih drop hp hm ho, ih true hp hm ho⟩

/-- Two iteration orders. -/
theorem custom_same {e1 e2 : Env} (h1 : Orders e1) (h2 : Orders e2) {hs : Option (Map Str)} (ho : OneSpelling (hs.getD [])) {g1 g2 : Header} {key : Str} :
    (customHeaders e1 hs g1 key = customHeaders e2 hs g2 key) ∨ (customHeaders e1 hs g1 key = g1 key ∧ customHeaders e2 hs g2 key = g2 key) := by
  by_cases ha : ∀ k v, (k, v) ∈ hs.getD [] → canonicalKey k ≠ key
  · exact .inr ⟨custom_unset h1 ha, custom_unset h2 ha⟩
  · simp only [Classical.not_forall] at ha
    obtain ⟨k, v, hm, hk⟩ := ha
    have hk : canonicalKey k = key := Classical.not_not.1 hk
    subst hk
    have hf : Field (hs.getD []) k v := ⟨hm, fun k' v' hm' hc => ho _ _ _ _ hm' hm hc⟩
    exact .inl (by rw [custom_field h1 hf, custom_field h2 hf])

theorem block_same {e1 e2 : Env} (h1 : Orders e1) (h2 : Orders e2) (ht : e1.cookieText = e2.cookieText) {h : HeadResp} (ho : OneSpelling (h.headers.getD []))
    (g : Header) : (∀ key, key ≠ b!"Set-Cookie" → blockOf e1 h g key = blockOf e2 h g key) ∧
      (blockOf e1 h g b!"Set-Cookie").Perm (blockOf e2 h g b!"Set-Cookie") := by
  have hc : ∀ key, key ≠ b!"Set-Cookie" → customHeaders e1 h.headers (cookieHeaders e1 h.cookies g) key = customHeaders e2 h.headers (cookieHeaders e2 h.cookies g) key := by
    intro key hk
    rcases custom_same h1 h2 ho (g1 := cookieHeaders e1 h.cookies g) (g2 := cookieHeaders e2 h.cookies g) (key := key) with h | ⟨ha, hb⟩
    · exact h
    · rw [ha, hb, cookie_other hk, cookie_other hk]
  constructor
  · intro key hk
    unfold blockOf
    by_cases k1 : key = b!"Content-Type"
    · subst k1
      rw [default_ctype, default_ctype, get_ctype, get_ctype, hc _ hk]
    · by_cases k2 : key = b!"X-Content-Type-Options"
      · subst k2
        rw [default_sniff, default_sniff, get_sniff, get_sniff, hc _ hk]
      · rw [default_other k1 k2, default_other k1 k2, hc _ hk]
  · unfold blockOf
    rw [default_other (by decide) (by decide), default_other (by decide) (by decide)]
    rcases custom_same h1 h2 ho (g1 := cookieHeaders e1 h.cookies g) (g2 := cookieHeaders e2 h.cookies g) (key := b!"Set-Cookie") with h | ⟨ha, hb⟩
    · rw [h]
    · rw [ha, hb]
      obtain ⟨l1, a1, b1⟩ := cookie_texts h1 (ks := h.cookies) (h := g)
      obtain ⟨l2, a2, b2⟩ := cookie_texts h2 (ks := h.cookies) (h := g)
      rw [a1, a2]
      refine List.Perm.append_left _ (b1.trans (.trans ?_ b2.symm))
      unfold cookieTexts
      rw [ht]

end Gofre.Response
