import Verif.Proofs.Http
import Verif.Spec.Response
import Verif.Proofs.FieldName

/-! # Header blocks -/

namespace Gofre.Response
open Gofre.Http Gofre.Spec

theorem fold_set_absent {key : Str} : ∀ (l : Map Str) (h : Header), (∀ k v, (k, v) ∈ l → canonicalKey k ≠ key) → l.foldl (fun (h : Header) kv => h.set kv.1 kv.2) h key = h key := by
  intro l
  induction l with
  | nil => intro h _; rfl
  | cons a l ih =>
    intro h ha
    rw [List.foldl_cons, ih _ fun k v hk => ha k v (by simp [hk])]
    have := ha a.1 a.2 (by simp)
    simp only [Header.set]
    rw [if_neg (fun h => this h.symm)]

theorem fold_set_same {key v : Str} : ∀ (l : Map Str) (h : Header), (∀ k' v', (k', v') ∈ l → canonicalKey k' = key → v' = v) →
    h key = [v] → l.foldl (fun (h : Header) kv => h.set kv.1 kv.2) h key = [v] := by
  intro l
  induction l with
  | nil => intro h _ h0; exact h0
  | cons a l ih =>
    intro h ha h0
    rw [List.foldl_cons]
    refine ih _ (fun k' v' hk => ha k' v' (by simp [hk])) ?_
    simp only [Header.set]
    split
    · rename_i hk
      rw [ha a.1 a.2 (by simp) hk.symm]
    · exact h0

theorem fold_set_field {k v : Str} : ∀ (l : Map Str) (h : Header), Field l k v → l.foldl (fun (h : Header) kv => h.set kv.1 kv.2) h (canonicalKey k) = [v] := by
  intro l
  induction l with
  | nil => intro h hf; exact absurd hf.1 (by simp)
  | cons a l ih =>
    intro h hf
    rw [List.foldl_cons]
    rcases List.mem_cons.1 hf.1 with rfl | hm
    · refine fold_set_same _ _ (fun k' v' hk e => hf.2 k' v' (by simp [hk]) ((canonicalKey_iff _ _).1 e)) ?_
      simp [Header.set]
    · exact ih _ ⟨hm, fun k' v' hk => hf.2 k' v' (by simp [hk])⟩

theorem field_perm {l m : Map Str} (h : l.Perm m) {k v : Str} (hf : Field m k v) : Field l k v :=
  ⟨h.mem_iff.2 hf.1, fun k' v' hk => hf.2 k' v' (h.mem_iff.1 hk)⟩

theorem absent_perm {l m : Map Str} (h : l.Perm m) {key : Str} (hf : Absent m key) : Absent l key := fun k v hk => hf k v (h.mem_iff.1 hk)

variable {env : Env}

theorem custom_field (he : Orders env) {hs : Option (Map Str)} {h : Header} {k v : Str} (hf : Field (hs.getD []) k v) :
    customHeaders env hs h (canonicalKey k) = [v] := by
  cases hs with
  | none => exact absurd hf.1 (by simp)
  | some m => exact fold_set_field _ _ (field_perm (he.headers m) hf)

theorem custom_absent (he : Orders env) {hs : Option (Map Str)} {h : Header} {key : Str} (hf : Absent (hs.getD []) key) :
    customHeaders env hs h key = h key := by
  cases hs with
  | none => rfl
  | some m => exact fold_set_absent _ _ fun k v hk e => absent_perm (he.headers m) hf k v hk (same_of_key e)

theorem custom_unset (he : Orders env) {hs : Option (Map Str)} {h : Header} {key : Str} (hf : ∀ k v, (k, v) ∈ hs.getD [] → canonicalKey k ≠ key) :
    customHeaders env hs h key = h key := by
  cases hs with
  | none => rfl
  | some m => exact fold_set_absent _ _ fun k v hk => hf k v ((he.headers m).mem_iff.1 hk)

theorem setCookie_key : canonicalKey b!"Set-Cookie" = b!"Set-Cookie" := by decide
theorem ctype_key : canonicalKey b!"Content-Type" = b!"Content-Type" := by decide
theorem sniff_key : canonicalKey b!"X-Content-Type-Options" = b!"X-Content-Type-Options" := by decide

theorem fold_cookie : ∀ (l : Map Cookie) (h : Header), (l.foldl (fun h kv => setCookie env h kv.2) h) b!"Set-Cookie" = h b!"Set-Cookie" ++ cookieTexts env l := by
  intro l
  induction l with
  | nil => intro h; simp [cookieTexts]
  | cons a l ih =>
    intro h
    rw [List.foldl_cons, ih]
    unfold setCookie cookieTexts
    split
    · rename_i h0
      simp [h0]
    · rename_i h0
      simp only [Header.add, setCookie_key, if_true]
      simp [h0]

theorem fold_cookie_other {key : Str} (hk : key ≠ b!"Set-Cookie") : ∀ (l : Map Cookie) (h : Header), (l.foldl (fun h kv => setCookie env h kv.2) h) key = h key := by
  intro l
  induction l with
  | nil => intro h; rfl
  | cons a l ih =>
    intro h
    rw [List.foldl_cons, ih]
    unfold setCookie
    split
    · rfl
    · simp only [Header.add, setCookie_key, if_neg hk]

theorem cookie_texts (he : Orders env) {ks : Option (Map Cookie)} {h : Header} :
    ∃ l, cookieHeaders env ks h b!"Set-Cookie" = h b!"Set-Cookie" ++ l ∧ l.Perm (cookieTexts env (ks.getD [])) := by
  cases ks with
  | none => exact ⟨[], by simp [cookieHeaders], by simp [cookieTexts]⟩
  | some m => exact ⟨_, fold_cookie _ _, ((he.cookies m).map _).filter _⟩

theorem cookie_other {ks : Option (Map Cookie)} {h : Header} {key : Str} (hk : key ≠ b!"Set-Cookie") : cookieHeaders env ks h key = h key := by
  cases ks with
  | none => rfl
  | some m => exact fold_cookie_other hk _ _

theorem default_other {t : Str} {h : Header} {key : Str} (h1 : key ≠ b!"Content-Type") (h2 : key ≠ b!"X-Content-Type-Options") :
    defaultHeaders t h key = h key := by
  unfold defaultHeaders
  have a : ∀ (h : Header) v, h.set b!"Content-Type" v key = h key := fun h v => by simp only [Header.set, ctype_key, if_neg h1]
  have b : ∀ (h : Header) v, h.set b!"X-Content-Type-Options" v key = h key := fun h v => by simp only [Header.set, sniff_key, if_neg h2]
  split <;> split <;> simp only [a, b]

theorem get_ctype (h : Header) : h.get b!"Content-Type" = (h b!"Content-Type").head?.getD [] := by simp only [Header.get, ctype_key]
theorem get_sniff (h : Header) : h.get b!"X-Content-Type-Options" = (h b!"X-Content-Type-Options").head?.getD [] := by simp only [Header.get, sniff_key]

theorem default_ctype {t : Str} {h : Header} : defaultHeaders t h b!"Content-Type" =
    if h.get b!"Content-Type" = [] ∧ t ≠ [] then [t] else h b!"Content-Type" := by
  unfold defaultHeaders
  have b : ∀ (h : Header) v, h.set b!"X-Content-Type-Options" v b!"Content-Type" = h b!"Content-Type" := fun h v => by
    simp only [Header.set, sniff_key]; rw [if_neg (by decide)]
  split
  · split
    · rw [b]; simp [Header.set, ctype_key]
    · simp [Header.set, ctype_key]
  · split
    · rw [b]
    · rfl

theorem default_sniff {t : Str} {h : Header} : defaultHeaders t h b!"X-Content-Type-Options" =
    if h.get b!"X-Content-Type-Options" = [] then [b!"nosniff"] else h b!"X-Content-Type-Options" := by
  unfold defaultHeaders
  have a : ∀ (h : Header) v, h.set b!"Content-Type" v b!"X-Content-Type-Options" = h b!"X-Content-Type-Options" := fun h v => by
    simp only [Header.set, ctype_key]; rw [if_neg (by decide)]
  have a' : ∀ (h : Header) v, (h.set b!"Content-Type" v).get b!"X-Content-Type-Options" = h.get b!"X-Content-Type-Options" := fun h v => by
    rw [get_sniff, get_sniff, a]
  by_cases h1 : h.get b!"Content-Type" = [] ∧ t ≠ []
  · rw [if_pos h1, a']
    split
    · simp [Header.set, sniff_key]
    · rw [a]
  · rw [if_neg h1]
    split
    · simp [Header.set, sniff_key]
    · rfl

/-- The header block of a response. -/
def blockOf (env : Env) (r : HeadResp) (h0 : Header) : Header :=
  defaultHeaders r.contentType (customHeaders env r.headers (cookieHeaders env r.cookies h0))

theorem block_ok (he : Orders env) (r : HeadResp) (h0 : Header) : Block env r h0 (blockOf env r h0) := by
  refine ⟨?_, ?_, ?_, ?_, ?_⟩
  · intro k v hf hv k' hk'
    rw [(canonicalKey_iff _ _).2 hk']
    have hc := custom_field he (h := cookieHeaders env r.cookies h0) hf
    unfold blockOf
    by_cases h1 : canonicalKey k = b!"Content-Type"
    · rw [h1] at hc ⊢
      have hv : v ≠ [] := hv.resolve_right fun h => h.1 (same_of_key h1)
      rw [default_ctype, if_neg, hc]
      rw [get_ctype, hc]
      simp [hv]
    · by_cases h2 : canonicalKey k = b!"X-Content-Type-Options"
      · rw [h2] at hc ⊢
        have hv : v ≠ [] := hv.resolve_right fun h => h.2 (same_of_key h2)
        rw [default_sniff, if_neg, hc]
        rw [get_sniff, hc]
        simp [hv]
      · rw [default_other h1 h2, hc]
  · intro ha h0' ht
    unfold blockOf
    rw [default_ctype, if_pos]
    refine ⟨?_, ht⟩
    rw [get_ctype, custom_absent he ha, cookie_other (by decide), h0']
    rfl
  · intro ha h0'
    unfold blockOf
    rw [default_sniff, if_pos]
    rw [get_sniff, custom_absent he ha, cookie_other (by decide), h0']
    rfl
  · intro ha
    unfold blockOf
    rw [default_other (by decide) (by decide), custom_absent he ha]
    exact cookie_texts he
  · intro k ha h1 h2 h3
    unfold blockOf
    rw [default_other h2 h3, custom_absent he ha, cookie_other h1]

variable {c : Codec}

/-- The writer after a response has written its status line. -/
def headed (w : Wr c) (code : Nat) (H : Header) : Wr c :=
  { w with base := { w.base with header := H, status := some code, out := w.base.out ++ [.head code H] } }

theorem _root_.Gofre.Spec.BodyStatus.allowed {code : Int} (h : BodyStatus code) : W.bodyAllowed code.toNat = true := by
  obtain ⟨h1, h2, h3⟩ := h
  have e1 : ¬ code.toNat < 200 := by omega
  have e2 : ¬ code.toNat = 204 := by omega
  have e3 : ¬ code.toNat = 304 := by omega
  simp [W.bodyAllowed, e1, e2, e3]

theorem not_allowed {code : Int} (hf : FinalStatus code) (h : ¬ BodyStatus code) : W.bodyAllowed code.toNat = false := by
  have : code.toNat < 200 ∨ code.toNat = 204 ∨ code.toNat = 304 := by
    unfold BodyStatus at h
    rcases hf with h1 | h1 <;> omega
  rcases this with e | e | e <;> simp [W.bodyAllowed, e]

theorem headWrite_ok {r : HeadResp} {w : Wr c} (hs : w.base.status = none) (hf : FinalStatus r.statusCode) :
    headWrite env r w = .ret true (headed w r.statusCode.toNat (blockOf env r w.base.header)) := by
  unfold headWrite
  rw [if_neg (by rcases hf with h | h <;> omega)]
  simp only [Wr.setHeader, Wr.writeHeader, W.writeHeader, hs, Option.isSome_none, Bool.false_eq_true, if_false]
  rw [if_neg (by rcases hf with h | h <;> omega), if_neg (by rcases hf with h | h <;> omega)]
  rfl

theorem headWrite_err {r : HeadResp} {w : Wr c} (h : r.statusCode < 100 ∨ r.statusCode > 999) : headWrite env r w = .ret false w := by
  unfold headWrite
  rw [if_pos h]

end Gofre.Response

namespace Gofre.Response
open Gofre.Http Gofre.Spec

variable {env : Env} {c : Codec}

theorem headed_more {w w' : Wr c} {code : Nat} {H : Header} (h : More (headed w code H).base w'.base) :
    ∃ rest, w'.base.out = w.base.out ++ .head code H :: rest ∧ (∀ e ∈ rest, isBody e = true) ∧ w'.base.status = some code := by
  obtain ⟨rest, h1, h2⟩ := h.out
  exact ⟨rest, by rw [h1]; simp [headed], h2, h.status⟩

theorem without_false (h : HeadResp) : h.without false = h := rfl

theorem kind_writeWith {req : RReq} (drop : Bool) {r : Resp} {h : HeadResp} {w : Wr c} (hk : headOf req r = some h) (hs : w.base.status = none) (hf : FinalStatus h.statusCode) :
    More (headed w h.statusCode.toNat (blockOf env (h.without drop) w.base.header)).base (r.writeWith env req drop w).w.base := by
  have hw : headWrite env (h.without drop) w = .ret true (headed w h.statusCode.toNat (blockOf env (h.without drop) w.base.header)) := headWrite_ok hs hf
  have hd : (headed w h.statusCode.toNat (blockOf env (h.without drop) w.base.header)).base.status.isSome := rfl
  cases r <;> simp only [headOf, Option.some.injEq, reduceCtorEq] at hk
  case plain => subst hk; simp only [Resp.writeWith, hw]; exact .refl _
  case text => subst hk; simp only [Resp.writeWith, hw, WRes.andThen]; exact more_text hd _
  case json h' p =>
    subst hk
    simp only [Resp.writeWith, hw, WRes.andThen]
    split
    · exact .refl _
    · exact more_wr_write hd _
  case raw h' k =>
    subst hk
    simp only [Resp.writeWith, hw, WRes.andThen]
    cases k with
    | none => exact .refl _
    | some k => exact more_run hd k
  case stream h' k =>
    subst hk
    simp only [Resp.writeWith, hw, WRes.andThen]
    cases k with
    | none => exact .refl _
    | some k => exact more_run hd k
  case template h' k =>
    subst hk
    simp only [Resp.writeWith, hw, WRes.andThen]
    cases k with
    | none => exact .refl _
    | some k => exact more_run hd k
  case sse h' feed =>
    by_cases hp : req.protoMajor = 2
    · rw [if_pos hp] at hk
      obtain rfl := Option.some.inj hk
      simp only [Resp.writeWith, hw, WRes.andThen, hp, ne_eq, not_true_eq_false, if_false]
      generalize (headed w h'.statusCode.toNat (blockOf env (h'.without drop) w.base.header)) = w1 at hd
      have hd' : ∀ H, (w1.setHeader H).base.status.isSome := fun _ => hd
      have h1 := more_events feed.closes feed.events (hd' ((w1.base.header.set b!"Cache-Control" b!"no-cache").set b!"Connection" b!"keep-alive"))
      have h2 := h1.trans (more_thenFlush (h1.some (hd' _)))
      exact ⟨h2.status, h2.out⟩
    · rw [if_neg hp] at hk
      exact absurd hk (by simp)

theorem kind_write {req : RReq} {r : Resp} {h : HeadResp} {w : Wr c} (hk : headOf req r = some h) (hs : w.base.status = none) (hf : FinalStatus h.statusCode) :
    More (headed w h.statusCode.toNat (blockOf env h w.base.header)).base (r.write env req w).w.base := kind_writeWith false hk hs hf

/-- Nothing is answered yet and the header `key` has the values `vs` with `P vs`, or an answer has
been given with such values. -/
inductive Good (P : List Str → Prop) (key : Str) (out0 : List Ev) (w : W) : Prop
  | before (pre : List Ev) (hs : w.status = none) (ho : w.out = out0 ++ pre) (hp : ∀ e ∈ pre, isInfo e = true) (hv : P (w.header key))
  | after (code : Nat) (H : Header) (hs : w.status.isSome) (ho : Answered out0 w.out code H) (hv : P (H key))

section
variable {P : List Str → Prop} {key : Str} {out0 : List Ev}

theorem Good.more {w w' : W} (h : Good P key out0 w) (hs : w.status.isSome) (hm : More w w') : Good P key out0 w' := by
  cases h with
  | before pre hn => rw [hn] at hs; exact absurd hs (by simp)
  | after code H _ ho hv =>
    refine .after code H (hm.some hs) ?_ hv
    obtain ⟨pre, rest, h1, h2, h3⟩ := ho
    obtain ⟨rest', h4, h5⟩ := hm.out
    refine ⟨pre, rest ++ rest', by rw [h4, h1]; simp, h2, fun e he => ?_⟩
    rcases List.mem_append.1 he with h | h
    · exact h3 e h
    · exact h5 e h

theorem Good.commit {w : W} (h : Good P key out0 w) : Good P key out0 w.commit ∧ w.commit.status.isSome := by
  cases h with
  | before pre hs ho hp hv =>
    have : w.commit = { w with status := some 200, out := w.out ++ [.head 200 w.header] } := by simp [W.commit, hs]
    rw [this]
    exact ⟨.after 200 w.header rfl ⟨pre, [], by simp [ho], hp, by simp⟩ hv, rfl⟩
  | after code H hs ho hv => rw [commit_some hs]; exact ⟨.after code H hs ho hv, hs⟩

theorem write_commit (w : W) (b : Str) : w.write b = w.commit.write b := by
  unfold W.write
  have : w.commit.commit = w.commit := commit_some (by unfold W.commit; split <;> simp_all)
  rw [this]

theorem Good.write {w : W} (h : Good P key out0 w) (b : Str) : Good P key out0 (w.write b).2 := by
  rw [write_commit]
  exact h.commit.1.more h.commit.2 (more_write h.commit.2 b)

theorem Good.flush {w : W} (h : Good P key out0 w) : Good P key out0 w.flush := by
  have : w.flush = w.commit.flush := by
    unfold W.flush
    have : w.commit.commit = w.commit := commit_some h.commit.2
    rw [this]
  rw [this]
  exact h.commit.1.more h.commit.2 (more_flush h.commit.2)

theorem Good.push : ∀ (ls : List (Layer c)) {w : W} (_ : Good P key out0 w) (b : Str), Good P key out0 (pushBytes ls w b).2.2
  | [], _, h, b => h.write b
  | l :: ls, w, h, b => by
    unfold pushBytes
    split
    · exact h
    · simp only
      split
      · exact h
      · exact Good.push ls h _

theorem Good.wrWrite {w : Wr c} (h : Good P key out0 w.base) (b : Str) : Good P key out0 (w.write b).2.base := Good.push _ h b

theorem Good.wrFlush {w : Wr c} (h : Good P key out0 w.base) : Good P key out0 w.flush.base := by
  unfold Wr.flush
  split
  · exact h.flush
  · split
    · exact h
    · simp only
      split
      · exact h
      · exact Good.push _ h _

theorem Good.wrClose {w : Wr c} (h : Good P key out0 w.base) : Good P key out0 w.close.base := by
  unfold Wr.close
  split
  · exact h
  · split
    · exact h
    · simp only
      split
      · exact h
      · exact Good.push _ h _

theorem Good.setHeader {w : Wr c} (h : Good P key out0 w.base) {H : Header} (hH : H key = w.base.header key) : Good P key out0 (w.setHeader H).base := by
  cases h with
  | before pre hs ho hp hv => exact .before pre hs ho hp (by simpa [Wr.setHeader, hH] using hv)
  | after code H' hs ho hv => exact .after code H' hs ho hv

theorem Good.writeHeader {w w' : W} (h : Good P key out0 w) {code : Int} (hw : w.writeHeader code = some w') : Good P key out0 w' := by
  unfold W.writeHeader at hw
  split at hw
  · obtain rfl := Option.some.inj hw; exact h
  · rename_i hn
    cases h with
    | after code H hs => exact absurd hs hn
    | before pre hs ho hp hv =>
      split at hw
      · exact absurd hw (by simp)
      · split at hw
        · obtain rfl := Option.some.inj hw
          refine .before (pre ++ [.info code.toNat w.header]) hs (by simp [ho]) (fun e he => ?_) hv
          rcases List.mem_append.1 he with h | h
          · exact hp e h
          · rw [List.mem_singleton.1 h]; rfl
        · obtain rfl := Option.some.inj hw
          exact .after code.toNat w.header rfl ⟨pre, [], by simp [ho], hp, by simp⟩ hv

theorem Good.wrWriteHeader {w w' : Wr c} (h : Good P key out0 w.base) {code : Int} (hw : w.writeHeader code = some w') : Good P key out0 w'.base := by
  unfold Wr.writeHeader at hw
  obtain ⟨b, hb, rfl⟩ := Option.map_eq_some_iff.1 hw
  exact h.writeHeader hb

theorem Good.text {w : Wr c} (h : Good P key out0 w.base) (p : Str) : Good P key out0 (writeText w p).2.base := by
  unfold writeText
  split
  · exact h
  · exact h.wrWrite p

theorem Good.chunks : ∀ (l : List Str) {w : Wr c}, Good P key out0 w.base → Good P key out0 (writeChunks l w).2.base
  | [], _, h => h
  | b :: l, w, h => by
    unfold writeChunks
    have hm := h.wrWrite b
    revert hm
    generalize w.write b = r
    obtain ⟨ok, w1⟩ := r
    intro hm
    cases ok with
    | true => exact Good.chunks l hm
    | false => exact hm

theorem Good.run {w : Wr c} (h : Good P key out0 w.base) (k : Chunks) : Good P key out0 (runChunks k w).w.base := by
  unfold runChunks
  have hm := Good.chunks k.chunks h
  revert hm
  generalize writeChunks k.chunks w = r
  obtain ⟨ok, w1⟩ := r
  intro hm
  cases ok <;> exact hm

theorem Good.events (closes : Bool) : ∀ (l : List (Event × Bool)) {w : Wr c}, Good P key out0 w.base → Good P key out0 (eventLoop closes l w).w.base
  | [], w, h => by
    unfold eventLoop
    split <;> exact h
  | (_, true) :: _, _, h => h
  | (e, false) :: l, w, h => by
    unfold eventLoop
    have hm := h.text (eventText e)
    revert hm
    generalize writeText w (eventText e) = r
    obtain ⟨ok, w1⟩ := r
    intro hm
    cases ok with
    | false => exact hm
    | true => exact Good.events closes l hm.wrFlush

theorem Good.ops : ∀ (l : List Op) {w : Wr c}, (∀ op ∈ l, Leaves key op) → Good P key out0 w.base → Good P key out0 (runOps l w).w.base
  | [], _, _, h => h
  | .set k v :: l, w, hl, h => by
    have : key ≠ canonicalKey k := fun e => hl (.set k v) (by simp) (same_of_key e.symm)
    exact Good.ops l (fun op ho => hl op (by simp [ho])) (h.setHeader (by simp [Header.set, this]))
  | .add k v :: l, w, hl, h => by
    have : key ≠ canonicalKey k := fun e => hl (.add k v) (by simp) (same_of_key e.symm)
    exact Good.ops l (fun op ho => hl op (by simp [ho])) (h.setHeader (by simp [Header.add, this]))
  | .writeHeader code :: l, w, hl, h => by
    unfold runOps
    split
    · exact h
    · rename_i w1 hw
      exact Good.ops l (fun op ho => hl op (by simp [ho])) (h.wrWriteHeader hw)
  | .write b :: l, w, hl, h => Good.ops l (fun op ho => hl op (by simp [ho])) (h.wrWrite b)
  | .flush :: l, w, hl, h => Good.ops l (fun op ho => hl op (by simp [ho])) h.wrFlush

theorem Good.thenFlush {r : WRes c} (h : Good P key out0 r.w.base) : Good P key out0 r.thenFlush.w.base := by
  cases r with
  | ret ok w => exact Good.wrFlush (w := w) h
  | panic w => exact Good.wrFlush (w := w) h
  | blocked w => exact h

theorem Good.thenClose {r : WRes c} (h : Good P key out0 r.w.base) : Good P key out0 r.thenClose.w.base := by
  cases r with
  | ret ok w => exact Good.wrClose (w := w) h
  | panic w => exact Good.wrClose (w := w) h
  | blocked w => exact h

/-- After the head of a response. -/
theorem good_head {h : HeadResp} {w : Wr c} (hs : w.base.status = none) (hc : 100 ≤ h.statusCode ∧ h.statusCode ≤ 999)
    (hv : P (blockOf env h w.base.header key)) : ∃ w', headWrite env h w = .ret true w' ∧ Good P key w.base.out w'.base := by
  have hg : Good P key w.base.out (w.setHeader (blockOf env h w.base.header)).base := .before [] hs (by simp [Wr.setHeader]) (by simp) hv
  unfold headWrite
  rw [if_neg (by omega)]
  cases hw : (w.setHeader (blockOf env h w.base.header)).writeHeader h.statusCode with
  | none =>
    simp only [Wr.writeHeader, W.writeHeader, Wr.setHeader, hs, Option.isSome_none, Bool.false_eq_true, if_false] at hw
    rw [if_neg (by omega)] at hw
    split at hw <;> exact absurd hw (by simp)
  | some w' =>
    refine ⟨w', ?_, hg.wrWriteHeader hw⟩
    simp only [blockOf] at hw
    simp only [hw]

/-- The parts of a response that decide about a header. -/
def Resp.parts (drop : Bool) : Resp → HeadResp
  | .plain h => h.without drop
  | .text h _ => h.without drop
  | .json h _ => h.without drop
  | .raw h _ => h.without drop
  | .stream h _ => h.without drop
  | .template h _ => h.without drop
  | .sse h _ => h.without drop
  | .adaptor hs ks _ => { headers := Response.without drop hs, cookies := ks }
  | _ => {}

/-- The header has the right values in whatever block is written. -/
def BlockHas (env : Env) (P : List Str → Prop) (key : Str) (h0 : Header → Prop) (drop : Bool) : Resp → Prop
  | .compress _ r => BlockHas env P key h0 drop r ∧ BlockHas env P key h0 true r
  | .adaptor hs ks _ => ∀ H, h0 H → P (customHeaders env (Response.without drop hs) (cookieHeaders env ks H) key)
  | r => ∀ H, h0 H → P (blockOf env (r.parts drop) H key)

theorem good_write {req : RReq} {h0 : Header → Prop} (hce : ∀ H a, algFor req.acceptEncoding = some a → h0 H → h0 (H.set b!"Content-Encoding" (algName a))) : ∀ (r : Resp) (drop : Bool) {w : Wr c},
    Passes req key r → BlockHas env P key h0 drop r → w.base.status = none → h0 w.base.header → Good P key w.base.out (r.writeWith env req drop w).w.base
  | .plain h, drop, w, hp, hb, hs, hh => by
    obtain ⟨w', h1, h2⟩ := good_head (env := env) (h := h.without drop) hs hp (hb _ hh)
    simp only [Resp.writeWith, h1]
    exact h2
  | .text h p, drop, w, hp, hb, hs, hh => by
    obtain ⟨w', h1, h2⟩ := good_head (env := env) (h := h.without drop) hs hp (hb _ hh)
    simp only [Resp.writeWith, h1, WRes.andThen]
    exact h2.text p
  | .json h p, drop, w, hp, hb, hs, hh => by
    obtain ⟨w', h1, h2⟩ := good_head (env := env) (h := h.without drop) hs hp (hb _ hh)
    simp only [Resp.writeWith, h1, WRes.andThen]
    split
    · exact h2
    · exact h2.wrWrite _
  | .raw h k, drop, w, hp, hb, hs, hh => by
    obtain ⟨w', h1, h2⟩ := good_head (env := env) (h := h.without drop) hs hp (hb _ hh)
    simp only [Resp.writeWith, h1, WRes.andThen]
    cases k with
    | none => exact h2
    | some k => exact h2.run k
  | .stream h k, drop, w, hp, hb, hs, hh => by
    obtain ⟨w', h1, h2⟩ := good_head (env := env) (h := h.without drop) hs hp (hb _ hh)
    simp only [Resp.writeWith, h1, WRes.andThen]
    cases k with
    | none => exact h2
    | some k => exact h2.run k
  | .template h k, drop, w, hp, hb, hs, hh => by
    obtain ⟨w', h1, h2⟩ := good_head (env := env) (h := h.without drop) hs ⟨hp.1, hp.2.1⟩ (hb _ hh)
    simp only [Resp.writeWith, h1, WRes.andThen]
    cases k with
    | none => exact h2
    | some k => exact h2.run k
  | .sse h feed, drop, w, hp, hb, hs, hh => by
    have hw := headWrite_ok (env := env) (r := h.without drop) hs hp.2
    have hg : Good P key w.base.out (headed w (h.without drop).statusCode.toNat (blockOf env (h.without drop) w.base.header)).base :=
      .after (h.without drop).statusCode.toNat (blockOf env (h.without drop) w.base.header) rfl ⟨[], [], by simp [headed], by simp, by simp⟩ (hb _ hh)
    simp only [Resp.writeWith, hw, WRes.andThen, hp.1, ne_eq, not_true_eq_false, if_false]
    refine Good.thenFlush (Good.events _ _ ?_)
    cases hg with
    | before _ hn => exact absurd hn (by simp [headed])
    | after code H hs ho hv => exact .after code H hs ho hv
  | .adaptor hs' ks ops, drop, w, hp, hb, hs, hh => by
    simp only [Resp.writeWith]
    exact Good.ops (w := w.setHeader _) ops hp (.before [] hs (by simp [Wr.setHeader]) (by simp) (hb _ hh))
  | .redirect _ _, _, _, hp, _, _, _ => hp.elim
  | .hijack, _, _, hp, _, _, _ => hp.elim
  | .compress level r, drop, w, hp, hb, hs, hh => by
    simp only [Resp.writeWith]
    split
    · exact good_write hce r drop hp hb.1 hs hh
    · rename_i a ha
      exact Good.thenClose (good_write hce (w := ⟨{ w.base with header := w.base.header.set b!"Content-Encoding" (algName a) }, ⟨c.start a level, false⟩ :: w.layers⟩)
        r true hp hb.2 hs (hce _ _ ha hh))

/-- The response was written to its end, or at least its header block was. -/
def Done (r : WRes c) : Prop := (∃ ok w, r = .ret ok w) ∨ r.w.base.status.isSome

theorem Done.seen {r : WRes c} (h : Done r) : Spec.seen r = r.w.base.commit.out := by
  cases r with
  | ret ok w => rfl
  | panic w => rcases h with ⟨ok, w', h⟩ | h; cases h; rw [commit_some h]; rfl
  | blocked w => rcases h with ⟨ok, w', h⟩ | h; cases h; rw [commit_some h]; rfl

theorem Good.seen {r : WRes c} (h : Good P key out0 r.w.base) (hd : Done r) : ∃ code H, Answered out0 (Spec.seen r) code H ∧ P (H key) := by
  rw [hd.seen]
  cases h.commit.1 with
  | before _ hn => have := h.commit.2; rw [hn] at this; exact absurd this (by simp)
  | after code H _ ho hv => exact ⟨code, H, ho, hv⟩

theorem done_ret {ok : Bool} {w : Wr c} : Done (.ret ok w) := .inl ⟨ok, w, rfl⟩

theorem done_run (k : Chunks) (w : Wr c) : Done (runChunks k w) := by
  unfold runChunks
  split <;> exact done_ret

theorem done_ops : ∀ (l : List Op) (w : Wr c), (∀ op ∈ l, Leaves key op) → Done (runOps l w)
  | [], w, _ => done_ret
  | .set k v :: l, w, h => done_ops l _ fun op ho => h op (by simp [ho])
  | .add k v :: l, w, h => done_ops l _ fun op ho => h op (by simp [ho])
  | .writeHeader code :: l, w, h => by
    have hc : 100 ≤ code ∧ code ≤ 999 := h (.writeHeader code) (by simp)
    unfold runOps
    split
    · rename_i hn
      exfalso
      revert hn
      simp only [Wr.writeHeader, Option.map_eq_none_iff, W.writeHeader]
      split
      · simp
      · rw [if_neg (by omega)]
        split <;> simp
    · exact done_ops l _ fun op ho => h op (by simp [ho])
  | .write b :: l, w, h => done_ops l _ fun op ho => h op (by simp [ho])
  | .flush :: l, w, h => done_ops l _ fun op ho => h op (by simp [ho])

/-- Responses that pass their headers on send them. -/
theorem passes_done {req : RReq} : ∀ (r : Resp) (drop : Bool) {w : Wr c}, Passes req key r → w.base.status = none → Done (r.writeWith env req drop w)
  | .plain h, drop, w, hp, hs => by
    obtain ⟨w', h1, _⟩ := good_head (P := fun _ => True) (key := []) (env := env) (h := h.without drop) hs hp trivial
    simp only [Resp.writeWith, h1]; exact done_ret
  | .text h p, drop, w, hp, hs => by
    obtain ⟨w', h1, _⟩ := good_head (P := fun _ => True) (key := []) (env := env) (h := h.without drop) hs hp trivial
    simp only [Resp.writeWith, h1, WRes.andThen]; exact done_ret
  | .json h p, drop, w, hp, hs => by
    obtain ⟨w', h1, _⟩ := good_head (P := fun _ => True) (key := []) (env := env) (h := h.without drop) hs hp trivial
    simp only [Resp.writeWith, h1, WRes.andThen]
    split <;> exact done_ret
  | .raw h k, drop, w, hp, hs => by
    obtain ⟨w', h1, _⟩ := good_head (P := fun _ => True) (key := []) (env := env) (h := h.without drop) hs hp trivial
    simp only [Resp.writeWith, h1, WRes.andThen]
    cases k with
    | none => exact done_ret
    | some k => exact done_run k _
  | .stream h k, drop, w, hp, hs => by
    obtain ⟨w', h1, _⟩ := good_head (P := fun _ => True) (key := []) (env := env) (h := h.without drop) hs hp trivial
    simp only [Resp.writeWith, h1, WRes.andThen]
    cases k with
    | none => exact done_ret
    | some k => exact done_run k _
  | .template h k, drop, w, hp, hs => by
    cases k with
    | some k =>
      obtain ⟨w', h1, _⟩ := good_head (P := fun _ => True) (key := []) (env := env) (h := h.without drop) hs ⟨hp.1, hp.2.1⟩ trivial
      simp only [Resp.writeWith, h1, WRes.andThen]
      exact done_run k _
    | none =>
      have hf : FinalStatus h.statusCode := by
        rcases hp.2.2 with h | h
        · exact absurd rfl h
        · exact h
      exact .inr (by rw [(kind_writeWith (env := env) drop (req := req) (r := .template h none) rfl hs hf).status]; rfl)
  | .sse h feed, drop, w, hp, hs => .inr (by rw [(kind_writeWith (env := env) drop (req := req) (r := .sse h feed) (by simp [headOf, hp.1]) hs hp.2).status]; rfl)
  | .adaptor hs' ks ops, drop, w, hp, hs => done_ops ops _ hp
  | .redirect _ _, _, _, hp, _ => hp.elim
  | .hijack, _, _, hp, _ => hp.elim
  | .compress level r, drop, w, hp, hs => by
    simp only [Resp.writeWith]
    split
    · exact passes_done r drop hp hs
    · rename_i a _
      have h := passes_done r true (w := (⟨{ w.base with header := w.base.header.set b!"Content-Encoding" (algName a) }, ⟨c.start a level, false⟩ :: w.layers⟩ : Wr c)) hp hs
      rcases h with ⟨ok, w', h⟩ | h
      · exact .inl ⟨ok, w'.close, congrArg WRes.thenClose h⟩
      · exact .inr ((more_thenClose h).some h)

end

end Gofre.Response
