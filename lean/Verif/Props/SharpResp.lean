import Verif.Props.Response
import Verif.Props.Cookies
import Verif.Props.Sse
import Verif.Props.Pattern
import Verif.Props.Security
import Verif.Props.Compress

/-!
# How far the failing claims about responses fail

The companion of `Verif.Props.Sharp` for responses, events, patterns and security headers.
-/

namespace Gofre.Props
open Gofre.Http Gofre.Response Gofre.Spec
variable {env : Env} {c : Codec}

/-! ### C09 -/

/-- C09, exactly: an accepted pattern keeps all its segments if and only if it has fewer than 256. -/
theorem c09_exact (x : Path.Ext) (ci : Bool) (pat : Str) (p : Path.Pattern) (h : Path.parsePattern x ci pat = .ok p)
    (hne : pat ≠ b!"/") : p.segments.map (·.val) = pieces pat ↔ (pieces pat).length < 256 := by
  constructor
  · intro he
    have h1 := c09_count_mod x ci pat p h hne
    have h2 := congrArg List.length he
    rw [List.length_map] at h2
    omega
  · exact c09_below_256_partial x ci pat p h hne

/-! ### C56 -/

/-- C56 fails for every text sent with an informational status: the client gets that status line
and another one, 200, and takes the text for a success. -/
theorem c56_violated_info {req : RReq} {h : HeadResp} {p : Str} {w : Wr c} (hs : w.base.status = none) (hl : w.layers = [])
    (h1 : 100 ≤ h.statusCode) (h2 : h.statusCode ≤ 199) (h3 : h.statusCode ≠ 101) (hp : p ≠ [])
    (hplan : w.base.plan w.base.writes = none) :
    ∃ H w', (Resp.text h p).write env req w = .ret true w' ∧
      w'.base.out = w.base.out ++ [.info h.statusCode.toNat H, .head 200 H, .data p] ∧ w'.base.status = some 200 := by
  have e1 : ¬ (h.statusCode < 100 ∨ h.statusCode > 999) := by omega
  have e2 : h.statusCode ≤ 199 ∧ h.statusCode ≠ 101 := ⟨h2, h3⟩
  simp only [Resp.write, Resp.writeWith, without_false, headWrite, if_neg e1, Wr.setHeader, Wr.writeHeader, W.writeHeader, hs,
    Option.isSome_none, Bool.false_eq_true, if_false, if_pos e2, Option.map_some, WRes.andThen, writeText, if_neg hp, Wr.write, hl, pushBytes,
    W.write, W.commit, Option.getD_some, hplan, show (!W.bodyAllowed 200) = false from rfl]
  exact ⟨blockOf env h w.base.header, _, rfl, by simp [blockOf], rfl⟩

example : ∃ H w', (Resp.text { status := 103 } b!"hi").write simpleEnv {} ({} : Wr dotCodec) = .ret true w' ∧
    w'.base.out = [] ++ [.info 103 H, .head 200 H, .data b!"hi"] ∧ w'.base.status = some 200 :=
  c56_violated_info (h := { status := 103 }) rfl rfl (by decide) (by decide) (by decide) (by decide) rfl

/-! ### C57 -/

theorem fold_set_last (l : Map Str) (h : Header) (k v : Str) :
    ((l ++ [(k, v)]).foldl (fun h kv => h.set kv.1 kv.2) h) (canonicalKey k) = [v] := by
  rw [List.foldl_append]
  simp [Header.set]

/-- Visiting one entry of a map last. -/
def lastly (k v : Str) (m : Map Str) : Map Str := if (k, v) ∈ m then List.erase m (k, v) ++ [(k, v)] else m

theorem lastly_perm (k v : Str) (m : Map Str) : (lastly k v m).Perm m := by
  unfold lastly
  split
  · rename_i h
    exact (List.perm_append_singleton _ _).trans (List.perm_cons_erase h).symm
  · exact .refl _

/-- C57 fails for every response with two spellings of one header name and different values: there is an iteration order
under which each of the values is the one sent. -/
theorem c57_violated_spellings {e : Env} (he : Orders e) {req : RReq} {r : Resp} {h : HeadResp} {w : Wr c} (hk : headOf req r = some h)
    (hs : w.base.status = none) (hf : FinalStatus h.statusCode) {k v : Str} (hm : (k, v) ∈ h.headers.getD [])
    (h1 : ¬ SameField k b!"Content-Type") (h2 : ¬ SameField k b!"X-Content-Type-Options") :
    ∃ e', Orders e' ∧ e'.cookieText = e.cookieText ∧
      ∃ H rest, (r.write e' req w).w.base.out = w.base.out ++ .head h.statusCode.toNat H :: rest ∧ ∀ k', SameField k' k → H (canonicalKey k') = [v] := by
  refine ⟨{ e with headerOrder := lastly k v }, ⟨lastly_perm k v, he.cookies⟩, rfl, ?_⟩
  obtain ⟨rest, a1, _, _⟩ := headed_more (kind_write (env := { e with headerOrder := lastly k v }) hk hs hf)
  refine ⟨_, rest, a1, fun k' hk' => ?_⟩
  rw [(canonicalKey_iff _ _).2 hk']
  unfold blockOf
  rw [default_other (fun e => h1 (same_of_key e)) (fun e => h2 (same_of_key e))]
  cases hh : h.headers with
  | none => rw [hh] at hm; simp at hm
  | some m =>
    rw [hh] at hm
    simp only [customHeaders]
    have : lastly k v m = List.erase m (k, v) ++ [(k, v)] := if_pos hm
    rw [this, fold_set_last]

example : ∃ e', Orders e' ∧ e'.cookieText = simpleEnv.cookieText ∧
    ∃ H rest, ((Resp.text { headers := some [(b!"x-a", b!"1"), (b!"X-A", b!"2")] } b!"hi").write e' {} ({} : Wr dotCodec)).w.base.out = [] ++ .head 200 H :: rest ∧ ∀ k', SameField k' b!"x-a" → H (canonicalKey k') = [b!"1"] :=
  c57_violated_spellings (k := b!"x-a") simple_orders (h := { headers := some [(b!"x-a", b!"1"), (b!"X-A", b!"2")] }) rfl rfl (.inr (by decide)) (by decide) (by decide) (by decide)

theorem fold_set_some {key : Str} : ∀ (l : Map Str) (h : Header), (∃ k v, (k, v) ∈ l ∧ canonicalKey k = key) →
    ∃ k v, (k, v) ∈ l ∧ canonicalKey k = key ∧ l.foldl (fun (h : Header) kv => h.set kv.1 kv.2) h key = [v]
  | [], _, h => by obtain ⟨k, v, h, _⟩ := h; simp at h
  | (a, b) :: l, h, hx => by
    rw [List.foldl_cons]
    by_cases hl : ∃ k v, (k, v) ∈ l ∧ canonicalKey k = key
    · obtain ⟨k, v, h1, h2, h3⟩ := fold_set_some l (h.set a b) hl
      exact ⟨k, v, .tail _ h1, h2, h3⟩
    · obtain ⟨k, v, h1, h2⟩ := hx
      rcases List.mem_cons.1 h1 with h1 | h1
      · cases h1
        refine ⟨a, b, .head _, h2, ?_⟩
        rw [fold_set_absent l _ fun k' v' hk' e => hl ⟨k', v', hk', e⟩, ← h2]
        simp [Header.set]
      · exact absurd ⟨k, v, h1, h2⟩ hl

theorem default_sent {t k v : Str} {h : Header} (hh : h (canonicalKey k) = [v]) : defaultHeaders t h (canonicalKey k) = [sentFor t k v] := by
  unfold sentFor
  by_cases h1 : canonicalKey k = b!"Content-Type"
  · rw [h1] at hh ⊢
    rw [default_ctype, get_ctype, hh]
    by_cases hv : v = []
    · by_cases ht : t = [] <;> simp [hv, ht]
    · simp [hv]
  · by_cases h2 : canonicalKey k = b!"X-Content-Type-Options"
    · rw [h2] at hh ⊢
      rw [default_sniff, get_sniff, hh]
      by_cases hv : v = [] <;> simp [hv]
    · rw [default_other h1 h2, hh]
      by_cases hv : v = [] <;> simp [hv, h1, h2]

theorem block_either {e : Env} (he : Orders e) (h : HeadResp) (g : Header) (key : Str) :
    (∃ k v, (k, v) ∈ h.headers.getD [] ∧ canonicalKey k = key ∧ blockOf e h g key = [sentFor h.contentType k v]) ∨
    (∀ k v, (k, v) ∈ h.headers.getD [] → canonicalKey k ≠ key) := by
  by_cases hx : ∃ k v, (k, v) ∈ h.headers.getD [] ∧ canonicalKey k = key
  · left
    cases hh : h.headers with
    | none => rw [hh] at hx; obtain ⟨k, v, hx, _⟩ := hx; simp at hx
    | some m =>
      rw [hh] at hx
      obtain ⟨k, v, h1, h2⟩ := hx
      obtain ⟨k, v, h3, h4, h5⟩ := fold_set_some (e.headerOrder m) (cookieHeaders e h.cookies g) ⟨k, v, (he.headers m).mem_iff.2 h1, h2⟩
      refine ⟨k, v, (he.headers m).mem_iff.1 h3, h4, ?_⟩
      subst h4
      unfold blockOf
      rw [hh]
      exact default_sent h5
  · exact .inr fun k v h1 h2 => hx ⟨k, v, h1, h2⟩

/-- C57, exactly: the header block does not depend on the iteration orders, up to the order of the cookies, if and only if any two entries for one
field, however spelled, are sent with the same value. -/
theorem c57_exact {e : Env} (he : Orders e) {req : RReq} {r : Resp} {h : HeadResp} {w : Wr c} (hk : headOf req r = some h)
    (hs : w.base.status = none) (hf : FinalStatus h.statusCode) :
    (∀ e1 e2 : Env, Orders e1 → Orders e2 → e1.cookieText = e.cookieText → e2.cookieText = e.cookieText →
      ∃ H1 H2 rest1 rest2, (r.write e1 req w).w.base.out = w.base.out ++ .head h.statusCode.toNat H1 :: rest1 ∧
        (r.write e2 req w).w.base.out = w.base.out ++ .head h.statusCode.toNat H2 :: rest2 ∧
        (∀ key, key ≠ b!"Set-Cookie" → H1 key = H2 key) ∧ (H1 b!"Set-Cookie").Perm (H2 b!"Set-Cookie")) ↔
    ∀ k v k' v', (k, v) ∈ h.headers.getD [] → (k', v') ∈ h.headers.getD [] → SameField k k' → sentFor h.contentType k v = sentFor h.contentType k' v' := by
  have hout : ∀ e1 : Env, ∃ rest, (r.write e1 req w).w.base.out = w.base.out ++ .head h.statusCode.toNat (blockOf e1 h w.base.header) :: rest := fun e1 => by
    obtain ⟨rest, a1, _, _⟩ := headed_more (kind_write (env := e1) hk hs hf)
    exact ⟨rest, a1⟩
  constructor
  · intro hall k v k' v' hm hm' hsame
    have hlast : ∀ a b, (a, b) ∈ h.headers.getD [] → blockOf { e with headerOrder := lastly a b } h w.base.header (canonicalKey a) = [sentFor h.contentType a b] := by
      intro a b hab
      unfold blockOf
      refine default_sent ?_
      cases hh : h.headers with
      | none => rw [hh] at hab; simp at hab
      | some m =>
        rw [hh] at hab
        simp only [customHeaders]
        rw [show lastly a b m = List.erase m (a, b) ++ [(a, b)] from if_pos hab, fold_set_last]
    obtain ⟨H1, H2, rest1, rest2, a1, a2, a3, a4⟩ := hall { e with headerOrder := lastly k v } { e with headerOrder := lastly k' v' } ⟨lastly_perm k v, he.cookies⟩ ⟨lastly_perm k' v', he.cookies⟩ rfl rfl
    obtain ⟨r1, b1⟩ := hout { e with headerOrder := lastly k v }
    obtain ⟨r2, b2⟩ := hout { e with headerOrder := lastly k' v' }
    rw [b1] at a1
    rw [b2] at a2
    have c1 := (Ev.head.inj (List.cons.inj (List.append_cancel_left a1)).1).2
    have c2 := (Ev.head.inj (List.cons.inj (List.append_cancel_left a2)).1).2
    have d1 := hlast k v hm
    have d2 := hlast k' v' hm'
    rw [c1] at d1
    rw [c2, ← (canonicalKey_iff _ _).2 hsame] at d2
    by_cases hc : canonicalKey k = b!"Set-Cookie"
    · rw [hc] at d1 d2
      rw [d1, d2] at a4
      exact List.singleton_perm_singleton.1 a4
    · have := a3 _ hc
      rw [d1, d2] at this
      exact (List.cons.inj this).1
  · intro hall e1 e2 h1 h2 t1 t2
    obtain ⟨r1, b1⟩ := hout e1
    obtain ⟨r2, b2⟩ := hout e2
    refine ⟨_, _, r1, r2, b1, b2, ?_⟩
    have hagree : ∀ key, (∃ k v, (k, v) ∈ h.headers.getD [] ∧ canonicalKey k = key) → blockOf e1 h w.base.header key = blockOf e2 h w.base.header key := by
      rintro key ⟨k, v, hm, hk⟩
      rcases block_either h1 h w.base.header key with ⟨k1, v1, m1, n1, p1⟩ | hno
      · rcases block_either h2 h w.base.header key with ⟨k2, v2, m2, n2, p2⟩ | hno
        · rw [p1, p2, hall k1 v1 k2 v2 m1 m2 ((canonicalKey_iff _ _).1 (n1.trans n2.symm))]
        · exact absurd hk (hno k v hm)
      · exact absurd hk (hno k v hm)
    have hun : ∀ e' : Env, Orders e' → ∀ key, (∀ k v, (k, v) ∈ h.headers.getD [] → canonicalKey k ≠ key) →
        customHeaders e' h.headers (cookieHeaders e' h.cookies w.base.header) key = cookieHeaders e' h.cookies w.base.header key := fun e' he' key hno => custom_unset he' hno
    constructor
    · intro key hkey
      by_cases hx : ∃ k v, (k, v) ∈ h.headers.getD [] ∧ canonicalKey k = key
      · exact hagree key hx
      · have hno : ∀ k v, (k, v) ∈ h.headers.getD [] → canonicalKey k ≠ key := fun k v a b => hx ⟨k, v, a, b⟩
        have hsame : customHeaders e1 h.headers (cookieHeaders e1 h.cookies w.base.header) key = customHeaders e2 h.headers (cookieHeaders e2 h.cookies w.base.header) key := by
          rw [hun e1 h1 key hno, hun e2 h2 key hno, cookie_other hkey, cookie_other hkey]
        unfold blockOf
        by_cases k1 : key = b!"Content-Type"
        · subst k1
          rw [default_ctype, default_ctype, get_ctype, get_ctype, hsame]
        · by_cases k2 : key = b!"X-Content-Type-Options"
          · subst k2
            rw [default_sniff, default_sniff, get_sniff, get_sniff, hsame]
          · rw [default_other k1 k2, default_other k1 k2, hsame]
    · by_cases hx : ∃ k v, (k, v) ∈ h.headers.getD [] ∧ canonicalKey k = b!"Set-Cookie"
      · rw [hagree _ hx]
      · have hno : ∀ k v, (k, v) ∈ h.headers.getD [] → canonicalKey k ≠ b!"Set-Cookie" := fun k v a b => hx ⟨k, v, a, b⟩
        unfold blockOf
        rw [default_other (by decide) (by decide), default_other (by decide) (by decide), hun e1 h1 _ hno, hun e2 h2 _ hno]
        obtain ⟨l1, a1, b1⟩ := cookie_texts h1 (ks := h.cookies) (h := w.base.header)
        obtain ⟨l2, a2, b2⟩ := cookie_texts h2 (ks := h.cookies) (h := w.base.header)
        rw [a1, a2]
        refine List.Perm.append_left _ (b1.trans (.trans ?_ b2.symm))
        unfold cookieTexts
        rw [t1, t2]

/-- Two spellings of one name can be harmless: an empty content type makes way for that of the response. -/
example : ∀ k v k' v', (k, v) ∈ [(b!"content-type", b!""), (b!"Content-Type", b!"text/x")] → (k', v') ∈ [(b!"content-type", b!""), (b!"Content-Type", b!"text/x")] → SameField k k' →
    sentFor b!"text/x" k v = sentFor b!"text/x" k' v' := by
  intro k v k' v' h h' _
  simp only [List.mem_cons, List.not_mem_nil, or_false, Prod.mk.injEq] at h h'
  rcases h with ⟨rfl, rfl⟩ | ⟨rfl, rfl⟩ <;> rcases h' with ⟨rfl, rfl⟩ | ⟨rfl, rfl⟩ <;> decide

/-! ### C64 -/

/-- Cookies whose names, paths and domains are the same text once written with colons in between. -/
def SameText (a b : Cookie) : Prop :=
  a.name ++ b!":" ++ a.path ++ b!":" ++ a.domain = b.name ++ b!":" ++ b.path ++ b!":" ++ b.domain

theorem cookieKey_text (a b : Cookie) : cookieKey a = cookieKey b ↔ SameText a b := by
  simp [cookieKey, SameText]

/-- C64, exactly: a cookie is kept if and only if no cookie added after it has the same name, path and domain
written with colons in between. -/
theorem c64_exact (l : List (Option Cookie)) (k : Cookie) :
    (∃ s, (s, k) ∈ addCookies [] l) ↔ ∃ pre post, l = pre ++ some k :: post ∧ ∀ k', some k' ∈ post → ¬ SameText k' k := by
  constructor
  · rintro ⟨s, h⟩
    rcases (mem_add l [] (by simp [IsMap]) s k).1 h with ⟨h1, _⟩ | ⟨_, pre, post, h2, h3⟩
    · simp at h1
    · exact ⟨pre, post, h2, fun k' hm => fun e => h3 k' hm ((cookieKey_text _ _).2 e)⟩
  · rintro ⟨pre, post, h2, h3⟩
    exact ⟨cookieKey k, (mem_add l [] (by simp [IsMap]) _ k).2 (.inr ⟨rfl, pre, post, h2, fun k' hm e => h3 k' hm ((cookieKey_text _ _).1 e)⟩)⟩

example : SameText { name := b!"a", path := b!"/x", domain := b!"b:c" } { name := b!"a", path := b!"/x:b", domain := b!"c" } := by
  unfold SameText; decide

/-! ### C72 -/

/-- C72 fails for every event: whoever writes the data can make the client read any event at
all after it, under any name and with any id. -/
theorem c72_violated_any {d t : Str} {f : Event} (hd : OneLine d) (hf : Sendable f) (hn : normalEvent f ≠ {}) (ht : eventText f = t ++ b!"\n\n") :
    readStream (eventText { data := [d ++ b!"\n\n" ++ t] }) = [{ data := [d] }, normalEvent f] := by
  have h1 : eventText { data := [d ++ b!"\n\n" ++ t] } = eventText { data := [d] } ++ (eventText f ++ []) := by
    rw [ht]
    simp [eventText, dataText]
  have hs : Sendable { data := [d] } :=
    ⟨⟨by simp, by simp⟩, ⟨by simp, by simp⟩, by simp, fun x hx => by rw [List.mem_singleton.1 hx]; exact hd, by show (0 : Int) < 2 ^ 63; decide⟩
  rw [h1, read_one hs, read_one hf, if_neg hn, if_neg (by simp [normalEvent])]
  simp [normalEvent, readStream, linesFrom, readBlocks]

example : readStream (eventText { data := [b!"hello" ++ b!"\n\n" ++ b!"event: admin\ndata: granted\nid: 7"] }) = [{ data := [b!"hello"] }, { name := b!"admin", data := [b!"granted"], id := b!"7" }] :=
  c72_violated_any (f := { name := b!"admin", data := [b!"granted"], id := b!"7" }) ⟨by decide, by decide⟩
    ⟨⟨by decide, by decide⟩, ⟨by decide, by decide⟩, by decide, fun x hx => by rw [List.mem_singleton.1 hx]; exact ⟨by decide, by decide⟩, by decide⟩ (by decide) (by decide +kernel)

theorem lines_oneLine : ∀ (s cur : Str), OneLine cur → ∀ l ∈ linesFrom cur s, OneLine l
  | [], _, _, l, h => by simp [linesFrom] at h
  | 13 :: 10 :: s, cur, hc, l, h => by
    rw [linesFrom] at h
    rcases List.mem_cons.1 h with rfl | h
    · exact hc
    · exact lines_oneLine s [] ⟨by simp, by simp⟩ l h
  | x :: s, cur, hc, l, h => by
    have key : (∀ k ∈ linesFrom [] s, OneLine k) ∧ (x ≠ 10 → x ≠ 13 → ∀ k ∈ linesFrom (cur ++ [x]) s, OneLine k) :=
      ⟨lines_oneLine s [] ⟨by simp, by simp⟩, fun h1 h2 => lines_oneLine s _ ⟨by simp [hc.1, Ne.symm h1], by simp [hc.2, Ne.symm h2]⟩⟩
    unfold linesFrom at h
    split at h
    · cases h
    · rename_i heq
      obtain ⟨rfl, rfl⟩ := List.cons.inj heq
      rcases List.mem_cons.1 h with rfl | h
      · exact hc
      · exact lines_oneLine _ [] ⟨by simp, by simp⟩ l h
    · rename_i heq
      obtain ⟨rfl, rfl⟩ := List.cons.inj heq
      split at h
      · rcases List.mem_cons.1 h with rfl | h
        · exact hc
        · exact key.1 l h
      · rename_i hx
        exact key.2 (fun e => hx (.inl e)) (fun e => hx (.inr e)) l h
termination_by s => s.length

theorem value_oneLine {line : Str} (h : OneLine line) : OneLine (dropSpace ((cutColon line).2.getD [])) := by
  have hsub : ∀ l : Str, ∀ b ∈ (cutColon l).2.getD [], b ∈ l := by
    intro l
    induction l with
    | nil => intro b hb; simp [cutColon] at hb
    | cons x l ih =>
      intro b hb
      rw [cutColon] at hb
      split at hb
      · exact .tail _ hb
      · exact .tail _ (ih b hb)
  have hdrop : ∀ l : Str, ∀ b ∈ dropSpace l, b ∈ l := by
    intro l b hb
    unfold dropSpace at hb
    split at hb
    · exact .tail _ hb
    · exact hb
  exact ⟨fun hb => h.1 (hsub _ _ (hdrop _ _ hb)), fun hb => h.2 (hsub _ _ (hdrop _ _ hb))⟩

/-- What a client can read: fields without line breaks, and ids without NUL. -/
theorem blocks_oneLine : ∀ (ls : List Str) (b : Event), (∀ l ∈ ls, OneLine l) → OneLine b.name ∧ OneLine b.id ∧ (0 : UInt8) ∉ b.id ∧ (∀ d ∈ b.data, OneLine d) →
    ∀ e ∈ readBlocks b ls, OneLine e.name ∧ OneLine e.id ∧ (0 : UInt8) ∉ e.id ∧ ∀ d ∈ e.data, OneLine d
  | [], _, _, _, e, he => by simp [readBlocks] at he
  | [] :: ls, b, hl, hb, e, he => by
    have h0 := blocks_oneLine ls {} (fun l h => hl l (.tail _ h)) ⟨⟨by simp, by simp⟩, ⟨by simp, by simp⟩, by simp, by simp⟩
    rw [readBlocks] at he
    split at he
    · exact h0 e he
    · rcases List.mem_cons.1 he with rfl | he
      · exact hb
      · exact h0 e he
  | (x :: l) :: ls, b, hl, hb, e, he => by
    rw [readBlocks] at he
    refine blocks_oneLine ls _ (fun l h => hl l (.tail _ h)) ?_ e he
    have hv := value_oneLine (hl _ (.head _))
    unfold readLine
    simp only
    split
    · exact ⟨hv, hb.2⟩
    · split
      · refine ⟨hb.1, hb.2.1, hb.2.2.1, fun d hd => ?_⟩
        rcases List.mem_append.1 hd with hd | hd
        · exact hb.2.2.2 d hd
        · rw [List.mem_singleton.1 hd]; exact hv
      · split
        · split
          · exact hb
          · rename_i hn
            exact ⟨hb.1, hv, hn, hb.2.2.2⟩
        · split
          · split <;> exact hb
          · exact hb

/-- C72, exactly: what a client reads is the event that was sent, and nothing else, if and only if no field has a line break and
the id no NUL (which is when C60 speaks about it).  `retry` is an `int`, and an event without anything in it is not sent. -/
theorem c72_exact {e : Event} (hr : e.retry < 2 ^ 63) (hn : normalEvent e ≠ {}) : readStream (eventText e) = [normalEvent e] ↔ Sendable e := by
  constructor
  · intro h
    obtain ⟨h1, h2, h3, h4⟩ := blocks_oneLine (linesFrom [] (eventText e)) {} (lines_oneLine _ _ ⟨by simp, by simp⟩) ⟨⟨by simp, by simp⟩, ⟨by simp, by simp⟩, by simp, by simp⟩ (normalEvent e)
      (by show normalEvent e ∈ readStream _; rw [h]; exact .head _)
    exact ⟨h1, h2, h3, h4, hr⟩
  · intro h
    have := read_one h []
    rw [List.append_nil, if_neg hn] at this
    exact this

/-- A name with a line break is not read as it was sent. -/
example : readStream (eventText { name := b!"a\nb", data := [b!"x"] }) ≠ [normalEvent { name := b!"a\nb", data := [b!"x"] }] :=
  fun h => absurd (((c72_exact (by decide) (by decide)).1 h).name.1) (by decide)

/-! ### C73 -/

/-- C73, exactly, over a connection that takes everything: an event stream returns if and only if its generator closes its
channel or sends something after the cancellation; otherwise it waits for ever. -/
theorem c73_exact (he : Orders env) {req : RReq} {h : HeadResp} {feed : Feed} {w : Wr c} (hp : req.protoMajor = 2) (hl : w.layers = [])
    (hs : w.base.status = none) (hf : FinalStatus h.statusCode) (hb : BodyStatus h.statusCode) (hpl : ∀ i, w.base.plan i = none) :
    ((∃ ok w', (Resp.sse h feed).write env req w = .ret ok w') ↔ feed.closes = true ∨ ∃ e, (e, true) ∈ feed.events) ∧
    (¬ (feed.closes = true ∨ ∃ e, (e, true) ∈ feed.events) → ∃ w', (Resp.sse h feed).write env req w = .blocked w') := by
  have hblock : ¬ (feed.closes = true ∨ ∃ e, (e, true) ∈ feed.events) → ∃ w', (Resp.sse h feed).write env req w = .blocked w' := by
    intro hn
    obtain ⟨H, n, tail, waits, w', _, h2, _, _, h5, h6⟩ := c61_delivered (c := c) he (feed := feed) hp hl hs hf hb
    cases h6 with
    | waiting h7 h8 => exact ⟨w', h2⟩
    | closed h7 h8 => exact absurd (.inl h8) hn
    | cancelled e h7 => exact absurd (.inr ⟨e, List.mem_of_getElem? h7⟩) hn
    | failed e i k h7 h8 => rw [hpl] at h8; cases h8
  refine ⟨⟨fun ⟨ok, w', h1⟩ => ?_, fun hc => ?_⟩, hblock⟩
  · apply Classical.byContradiction
    intro hn
    obtain ⟨w'', h2⟩ := hblock hn
    rw [h1] at h2
    cases h2
  · obtain ⟨w', h1⟩ := c73_returns_partial he hp hl hs hf hb hc
    exact ⟨true, w', h1⟩

/-! ### C76 -/

/-- The final statuses among events. -/
def statusesIn (l : List Ev) : List Nat := l.filterMap fun
  | .head code _ => some code
  | _ => none

/-- C76, exactly, for statuses that are not informational: whenever such a response fails, the client gets one status
line, and it says 200 if and only if the response was given 200 or no HTTP status at all; no failure changes it. -/
theorem c76_exact {req : RReq} {r : Resp} {h : HeadResp} {w w' : Wr c} (hk : headOf req r = some h) (hs : w.base.status = none)
    (hi : ¬ (100 ≤ h.statusCode ∧ h.statusCode ≤ 199 ∧ h.statusCode ≠ 101)) (hw : r.write env req w = .ret false w') :
    ∃ code H, Answered w.base.out (seen (r.write env req w)) code H ∧ (code = 200 ↔ h.statusCode = 200 ∨ h.statusCode < 100 ∨ h.statusCode > 999) := by
  by_cases hf : FinalStatus h.statusCode
  · obtain ⟨rest, h1, h2, h3⟩ := headed_more (kind_write (env := env) (c := c) hk hs hf)
    rw [hw] at h1 h3
    refine ⟨h.statusCode.toNat, blockOf env h w.base.header, ⟨[], rest, ?_, by simp, h2⟩, ?_⟩
    · rw [hw]
      show w'.base.commit.out = _
      rw [show w'.base.commit = w'.base from by rw [W.commit, if_pos]; exact (congrArg Option.isSome h3).trans rfl]
      simpa [WRes.w] using h1
    · rcases hf with hf | hf <;> omega
  · have hbad : h.statusCode < 100 ∨ h.statusCode > 999 := by
      unfold FinalStatus at hf
      omega
    refine ⟨200, w.base.header, ⟨[], [], ?_, by simp, by simp⟩, by simp [hbad]⟩
    simpa using (c76_violated_status (env := env) hk hbad hs).2

/-- A template that fails, with status 404 and with status 0. -/
example : ∃ w', (Resp.template { status := 404 } (some ⟨[b!"a"], true⟩)).write simpleEnv {} ({} : Wr dotCodec) = .ret false w' ∧ statusesIn w'.base.out = [404] := ⟨_, rfl, rfl⟩
example : ∃ w', (Resp.template {} (some ⟨[b!"a"], true⟩)).write simpleEnv {} ({} : Wr dotCodec) = .ret false w' ∧ statusesIn w'.base.out = [200] := ⟨_, rfl, rfl⟩

/-! ### C71 -/

/-- C71, exactly: with the protection on, the frame option sent is the right one if and only if the separately configured
text spells it. -/
theorem c71_exact {σ α : Type} (cfg : Security.Config) (h : Handler σ (RespH α)) (ctx : Ctx) (r : Req) (k : Security.Cached) (s : σ)
    (hk : CacheOK cfg k) (hc : cfg.clickEnabled = true)
    (resp : RespH α) (h₁ : Map Str) (k' s') (hres : Security.securityHeaders cfg h ctx r k s = (.ret (some resp) none, k', s'))
    (hh : resp.headers = some h₁) :
    (cfg.xFrameOption = Security.deny → (Map.get? h₁ b!"X-Frame-Options" = some b!"DENY" ↔ cfg.xFrameOptionHeaderValue = b!"DENY")) ∧
    (cfg.xFrameOption = Security.sameOrigin → (Map.get? h₁ b!"X-Frame-Options" = some b!"SAMEORIGIN" ↔ cfg.xFrameOptionHeaderValue = b!"SAMEORIGIN")) ∧
    (cfg.xFrameOption = Security.allowFrom → (Map.get? h₁ b!"X-Frame-Options" = some (b!"ALLOW-FROM " ++ cfg.xFrameAllowFromUri) ↔
      cfg.xFrameOptionHeaderValue = b!"ALLOW-FROM")) := by
  have key := c71_sent cfg h ctx r k s hk hc resp h₁ k' s' hres hh
  rw [key]
  refine ⟨fun e => ?_, fun e => ?_, fun e => ?_⟩
  · simp [e, Security.deny, Security.allowFrom]
  · simp [e, Security.sameOrigin, Security.allowFrom]
  · rw [if_pos e]
    constructor
    · intro h
      have h := Option.some.inj h
      have : b!"ALLOW-FROM " ++ cfg.xFrameAllowFromUri = b!"ALLOW-FROM" ++ 32 :: cfg.xFrameAllowFromUri := rfl
      rw [this] at h
      exact List.append_cancel_right h
    · intro h; rw [h]; rfl

end Gofre.Props
