import Verif.Model.Escape
import Verif.Spec.Escape
import Verif.Proofs.Query
import Verif.Proofs.Redirect
import Verif.Props.Complete

/-!
# Values sent in the path come back

Property C117.
-/

namespace Gofre.Escape

theorem pathSafe_ne {c : UInt8} (h : pathSafe c = true) : c ≠ 37 := by
  rintro rfl; revert h; decide

theorem unescape_plain {c : UInt8} (h : c ≠ 37) (l : Str) : pathUnescape (c :: l) = (pathUnescape l).map (c :: ·) := by
  rw [pathUnescape]
  · intro a b l' hc; exact absurd hc h
  · intro hc; exact absurd hc h

theorem hexDigit_value {a : UInt8} {h : Nat} (ha : Spec.HexValue a h) : hexDigit a = some (UInt8.ofNat h) ∧ h < 16 := by
  cases ha with
  | digit _ hk => exact ⟨by revert h; decide, by omega⟩
  | lower k hk => exact ⟨by revert k; decide, by omega⟩
  | upper k hk => exact ⟨by revert k; decide, by omega⟩

theorem upperHex_value : ∀ {n : Nat}, n < 16 → Spec.HexValue (OAuth.upperHex (UInt8.ofNat n)) n := by
  intro n hn
  by_cases h : n < 10
  · have : OAuth.upperHex (UInt8.ofNat n) = UInt8.ofNat (48 + n) := by revert n; decide
    rw [this]; exact .digit n h
  · obtain ⟨k, rfl⟩ : ∃ k, n = 10 + k := ⟨n - 10, by omega⟩
    have hk : k < 6 := by omega
    have : OAuth.upperHex (UInt8.ofNat (10 + k)) = UInt8.ofNat (65 + k) := by clear hn h; revert k; decide
    rw [this]; exact .upper k hk

/-- Decoding what starts with a text that writes another. -/
theorem unescape_writes {s e : Str} (h : Spec.Percent s e) (r : Str) : pathUnescape (e ++ r) = (pathUnescape r).map (s ++ ·) := by
  induction h with
  | nil => simp
  | same hc _ ih =>
    rw [List.cons_append, unescape_plain hc, ih]
    simp [Option.map_map, Function.comp_def]
  | @escaped a b h k s e ha hb _ ih =>
    obtain ⟨h1, h3⟩ := hexDigit_value ha
    obtain ⟨h2, h4⟩ := hexDigit_value hb
    have hv : UInt8.ofNat h <<< 4 ||| UInt8.ofNat k = UInt8.ofNat (16 * h + k) := by
      have : ∀ h, h < 16 → ∀ k, k < 16 → UInt8.ofNat h <<< 4 ||| UInt8.ofNat k = UInt8.ofNat (16 * h + k) := by decide +kernel
      exact this h h3 k h4
    rw [List.cons_append, List.cons_append, List.cons_append, pathUnescape, h1, h2, ih]
    cases pathUnescape r <;> simp [hv]

theorem value_hexDigit {a v : UInt8} (h : hexDigit a = some v) : ∃ k, Spec.HexValue a k ∧ k < 16 ∧ v = UInt8.ofNat k := by
  have e : a = UInt8.ofNat a.toNat := by rw [UInt8.ofNat_toNat]
  have dig : ∀ k, k < 10 → hexDigit (UInt8.ofNat (48 + k)) = some (UInt8.ofNat k) := by decide
  have low : ∀ k, k < 6 → hexDigit (UInt8.ofNat (97 + k)) = some (UInt8.ofNat (10 + k)) := by decide
  have upp : ∀ k, k < 6 → hexDigit (UInt8.ofNat (65 + k)) = some (UInt8.ofNat (10 + k)) := by decide
  by_cases h1 : 48 ≤ a.toNat ∧ a.toNat ≤ 57
  · obtain ⟨k, hk⟩ : ∃ k, a.toNat = 48 + k := ⟨a.toNat - 48, by omega⟩
    rw [hk] at e
    rw [e, dig k (by omega)] at h
    exact ⟨k, e ▸ .digit k (by omega), by omega, (Option.some.inj h).symm⟩
  · by_cases h2 : 97 ≤ a.toNat ∧ a.toNat ≤ 102
    · obtain ⟨k, hk⟩ : ∃ k, a.toNat = 97 + k := ⟨a.toNat - 97, by omega⟩
      rw [hk] at e
      rw [e, low k (by omega)] at h
      exact ⟨10 + k, e ▸ .lower k (by omega), by omega, (Option.some.inj h).symm⟩
    · by_cases h3 : 65 ≤ a.toNat ∧ a.toNat ≤ 70
      · obtain ⟨k, hk⟩ : ∃ k, a.toNat = 65 + k := ⟨a.toNat - 65, by omega⟩
        rw [hk] at e
        rw [e, upp k (by omega)] at h
        exact ⟨10 + k, e ▸ .upper k (by omega), by omega, (Option.some.inj h).symm⟩
      · simp only [hexDigit, UInt8.le_iff_toNat_le] at h
        simp [h1, h2, h3] at h

/-- What a decoded path was written as. -/
theorem writes_unescape : ∀ (n : Nat) (e : Str), e.length ≤ n → ∀ s, pathUnescape e = some s → Spec.Percent s e
  | _, [], _, s, h => by cases h; exact .nil
  | 0, _ :: _, hn, _, _ => by simp at hn
  | n + 1, c :: e, hn, s, h => by
    by_cases hc : c = 37
    · subst hc
      match e, h with
      | [], h => simp [pathUnescape] at h
      | [_], h => simp [pathUnescape] at h
      | a :: b :: l, h =>
        rw [pathUnescape] at h
        cases ha : hexDigit a with
        | none => simp [ha] at h
        | some x =>
          cases hb : hexDigit b with
          | none => simp [ha, hb] at h
          | some y =>
            cases hr : pathUnescape l with
            | none => simp [ha, hb, hr] at h
            | some r =>
              simp only [ha, hb, hr, Option.some.injEq] at h
              subst h
              obtain ⟨i, h1, h2, rfl⟩ := value_hexDigit ha
              obtain ⟨j, h3, h4, rfl⟩ := value_hexDigit hb
              have : ∀ h, h < 16 → ∀ k, k < 16 → UInt8.ofNat h <<< 4 ||| UInt8.ofNat k = UInt8.ofNat (16 * h + k) := by decide +kernel
              rw [this i h2 j h4]
              exact .escaped h1 h3 (writes_unescape n l (by simp at hn; omega) r hr)
    · rw [unescape_plain hc] at h
      cases hr : pathUnescape e with
      | none => simp [hr] at h
      | some r =>
        simp only [hr, Option.map_some, Option.some.injEq] at h
        subst h
        exact .same hc (writes_unescape n e (by simpa using hn) r hr)

/-- `url.PathEscape` is one way to do it. -/
theorem writes_pathEscape (s : Str) : Spec.Percent s (pathEscape s) := by
  induction s with
  | nil => exact .nil
  | cons c l ih =>
    rw [pathEscape]
    split
    · rename_i h
      exact .same (pathSafe_ne h) ih
    · have : ∃ h k, Spec.HexValue (OAuth.upperHex (c >>> 4)) h ∧ Spec.HexValue (OAuth.upperHex (c &&& 15)) k ∧ c = UInt8.ofNat (16 * h + k) := by
        have hc : ∀ n, n < 256 → UInt8.ofNat n >>> 4 = UInt8.ofNat (n / 16) ∧ UInt8.ofNat n &&& 15 = UInt8.ofNat (n % 16) := by decide +kernel
        have hlt := c.toNat_lt
        obtain ⟨h1, h2⟩ := hc c.toNat hlt
        rw [UInt8.ofNat_toNat] at h1 h2
        refine ⟨c.toNat / 16, c.toNat % 16, ?_, ?_, ?_⟩
        · rw [h1]; exact upperHex_value (by omega)
        · rw [h2]; exact upperHex_value (by omega)
        · rw [Nat.div_add_mod, UInt8.ofNat_toNat]
      obtain ⟨h, k, h1, h2, h3⟩ := this
      have := Spec.Percent.escaped h1 h2 ih
      rw [← h3] at this
      exact this

theorem unescape_join {esc : Str → Str} (vs : List Str) (hesc : ∀ v ∈ vs, Spec.Percent v (esc v)) : pathUnescape (joinWith slash (vs.map esc)) = some (joinWith slash vs) := by
  match vs with
  | [] => rfl
  | [v] =>
    have := unescape_writes (hesc v (by simp)) []
    simp only [List.append_nil, pathUnescape, Option.map_some] at this
    simpa [joinWith] using this
  | v :: w :: vs =>
    have ih := unescape_join (w :: vs) fun v hv => hesc v (List.mem_cons_of_mem _ hv)
    simp only [List.map_cons, joinWith] at ih ⊢
    rw [unescape_writes (hesc v (by simp)), unescape_plain (by decide), ih]
    rfl

end Gofre.Escape

namespace Gofre.Props
open Gofre.Path Gofre.Spec Gofre.Escape

/-- C117, the path of the request line: a path is decoded to a text exactly when it writes that text; a path that writes none, one with a
percent sign without two hexadecimal digits after it, is refused. -/
theorem c117_decoded (e s : Str) : pathUnescape e = some s ↔ Percent s e := by
  refine ⟨writes_unescape e.length e (Nat.le_refl _) s, fun h => ?_⟩
  have := unescape_writes h []
  simpa [pathUnescape] using this

/-- Only one text is written, and some paths write none. -/
example : pathUnescape b!"/a%2fb" = some b!"/a/b" ∧ pathUnescape b!"/50%" = none ∧ pathUnescape b!"/%4G" = none := by decide

/-- Every segment of a request is not empty, has no slash and is not `..`. -/
theorem segments_whole (path : Str) : ∀ u ∈ segmentsOf path, Whole u := by
  have : ∀ (vs st : List Str), (∀ v ∈ vs, slash ∉ v) → (∀ v ∈ st, Whole v) → ∀ v ∈ vs.foldl push st, Whole v := by
    intro vs
    induction vs with
    | nil => intro st _ h; exact h
    | cons v vs ih =>
      intro st hv hst
      refine ih _ (fun w hw => hv w (by simp [hw])) ?_
      intro w hw
      unfold push at hw
      split at hw
      · exact hst w hw
      · split at hw
        · exact hst w (List.mem_of_mem_tail hw)
        · rcases List.mem_cons.1 hw with rfl | hw
          · exact ⟨by assumption, hv w (by simp), by assumption⟩
          · exact hst w hw
  intro u hu
  unfold segmentsOf normal at hu
  exact this _ [] (fun v hv => Gofre.splitOn_no_sep slash path v (List.mem_of_mem_drop hv)) (by simp) u (List.mem_reverse.1 hu)

/-- The segments of a path made of whole texts. -/
theorem segments_joined {vs : List Str} (h : ∀ v ∈ vs, Whole v) : segmentsOf (slash :: joinWith slash vs) = vs ∧
    (vs.length ≤ 19 → Fits (slash :: joinWith slash vs)) := by
  have hafter : vs ≠ [] → afterSlash (slash :: joinWith slash vs) = vs := by
    intro hne
    unfold afterSlash
    have : splitOn slash (slash :: joinWith slash vs) = [] :: splitOn slash (joinWith slash vs) := by simp [splitOn]
    rw [this, splitOn_joinWith hne fun v hv => (h v hv).2.1]
    rfl
  by_cases hne : vs = []
  · subst hne; exact ⟨by decide, fun _ => fits_of_count (by decide)⟩
  · constructor
    · unfold segmentsOf
      rw [hafter hne]
      exact normal_plain fun v hv => ⟨(h v hv).1, (h v hv).2.2⟩
    · intro hl
      refine fits_of_count ?_
      rw [hafter hne]
      exact Nat.le_trans List.countP_le_length hl

theorem valueIn_mem {name : Str} : ∀ {ss : List Segment} {bs : List (List Str)} {t : Str}, valueIn name ss bs = some t → t ∈ bs.flatten := by
  intro ss
  induction ss with
  | nil => intro bs t h; cases bs <;> cases h
  | cons s ss ih =>
    intro bs t h
    cases bs with
    | nil => cases h
    | cons b bs =>
      rw [valueIn] at h
      split at h
      · rw [List.flatten_cons]; exact List.mem_append_left _ (List.mem_of_head? h)
      · rw [List.flatten_cons]; exact List.mem_append_right _ (ih h)

/-- Patterns without wildcards laid over a link have the values of their variables. -/
theorem layout_link {x : Ext} {ci : Bool} {vals : Str → Str} : ∀ {ss : List Segment} {bs : List (List Str)},
    (∀ s ∈ ss, s.kind = .literal ∨ s.kind = .capture ∨ s.kind = .constraint) → Layout x ci ss (ss.map (standsFor vals)) bs →
    ∀ name, (∃ s ∈ ss, (s.kind = .capture ∨ s.kind = .constraint) ∧ s.varName = name) → valueIn name ss bs = some (vals name) := by
  intro ss
  induction ss with
  | nil => intro bs _ _ name h; obtain ⟨s, h, _⟩ := h; simp at h
  | cons s ss ih =>
    intro bs hk hlay name hn
    obtain ⟨h1, h2, h3⟩ := hlay
    cases h1 with
    | @cons _ b _ bs hr ht =>
      have hs : s.kind ≠ .multiple := by rcases hk s (by simp) with h | h | h <;> rw [h] <;> decide
      obtain ⟨u, rfl⟩ := List.length_eq_one_iff.1 (hr.1 hs)
      simp only [List.flatten_cons, List.map_cons, List.singleton_append, List.cons.injEq] at h2
      rw [valueIn]
      split
      · rename_i hc
        rw [List.head?_cons, h2.1, standsFor, if_pos hc.1, hc.2]
      · rename_i hc
        refine ih (fun t ht => hk t (by simp [ht])) ⟨ht, h2.2, ?_⟩ name ?_
        · intro t ht hm
          have := List.mem_of_getLast? ht
          rcases hk t (by simp [this]) with h | h | h <;> rw [h] at hm <;> cases hm
        · obtain ⟨t, ht, h⟩ := hn
          rcases List.mem_cons.1 ht with rfl | ht
          · exact absurd h hc
          · exact ⟨t, ht, h⟩

theorem describes_link {x : Ext} {ci : Bool} {vals : Str → Str} : ∀ {ss : List Segment},
    (∀ s ∈ ss, s.kind = .literal ∨ s.kind = .capture ∨ (s.kind = .constraint ∧ Fit x ci s (vals s.varName))) →
    Describes x ci ss (ss.map (standsFor vals)) := by
  intro ss
  induction ss with
  | nil => intro _; exact describes_nil.2 rfl
  | cons s ss ih =>
    intro hk
    have hk0 := hk s (by simp)
    rw [List.map_cons]
    refine (describes_one (by rcases hk0 with h | h | h <;> simp [h])).2 ⟨_, _, rfl, ?_, ih fun t ht => hk t (by simp [ht])⟩
    unfold standsFor
    rcases hk0 with h | h | h
    · simp [h, Fit]
    · simp [h, Fit]
    · rw [if_pos (.inr h.1)]; exact h.2

/-- C117: a link to a pattern of literals and variables, its values escaped in whatever way a client does it, is decoded and
described by the pattern; when the pattern answers it, every variable has the value put in. -/
theorem c117_values_partial {x : Ext} {ci : Bool} (hl : FoldLaws x.eqFold)
    {ps : List Pattern} {m : Matcher} (hr : Registered x ci sortSiblings ps m) (hplain : ∀ p ∈ ps, ∀ s ∈ p.segments, Plain ci s)
    {p : Pattern} (hk : ∀ s ∈ p.segments, s.kind = .literal ∨ s.kind = .capture ∨ s.kind = .constraint)
    {esc vals : Str → Str} (hesc : ∀ v, Percent v (esc v)) (hfit : ∀ s ∈ p.segments, s.kind = .constraint → Fit x ci s (vals s.varName))
    (hw : ∀ s ∈ p.segments, Whole (standsFor vals s)) (hcount : p.segments.length ≤ 19) (hpieces : (pieces p.raw).length < 256) :
    ∃ path, pathUnescape (link esc vals p.segments) = some path ∧ Fits path ∧ Describes x ci p.segments (segmentsOf path) ∧
      ∀ (buf : List USeg) (fuel : Nat) (labels : List MT), buf.length = 19 → path.length ≤ 65535 →
        lookup x ci m path buf fuel = some (.found p labels) →
        ∃ segs, parseURLPath path buf = some segs ∧
          ∀ s ∈ p.segments, s.kind = .capture ∨ s.kind = .constraint → pathVarText path p labels segs s.varName = some (vals s.varName) := by
  have hw' : ∀ v ∈ p.segments.map (standsFor vals), Whole v := by
    intro v hv
    obtain ⟨s, hs, rfl⟩ := List.mem_map.1 hv
    exact hw s hs
  obtain ⟨h1, h2⟩ := segments_joined hw'
  refine ⟨slash :: joinWith slash (p.segments.map (standsFor vals)), ?_, h2 (by simpa using hcount), ?_, ?_⟩
  · have := unescape_join (p.segments.map (standsFor vals)) fun v _ => hesc v
    rw [List.map_map] at this
    unfold link
    rw [unescape_plain (by decide)]
    show (pathUnescape (joinWith slash (p.segments.map (esc ∘ standsFor vals)))).map _ = _
    rw [this]
    rfl
  · rw [h1]
    exact describes_link fun s hs => by
      rcases hk s hs with h | h | h
      · exact .inl h
      · exact .inr (.inl h)
      · exact .inr (.inr ⟨h, hfit s hs h⟩)
  · intro buf fuel labels hb hlen hfound
    obtain ⟨segs, bs, h3, h4, h5⟩ := c15_variables_partial hl hr hplain hb hlen (h2 (by simpa using hcount)) hfound hpieces
    refine ⟨segs, h3, fun s hs hv => ?_⟩
    rw [h1] at h4
    rw [h5, layout_link hk h4 s.varName ⟨s, hs, hv, rfl⟩]
    rfl

/-- `/users/{name}/files/{file}`, escaped with `url.PathEscape` (`writes_pathEscape`), with the values `Ann Lee` and `50%?`. -/
example : ∃ ps m p path labels, Registered plainExt false sortSiblings ps m ∧ p ∈ ps ∧ (∀ p ∈ ps, ∀ s ∈ p.segments, Plain false s) ∧
    (∀ s ∈ p.segments, s.kind = .literal ∨ s.kind = .capture ∨ s.kind = .constraint) ∧
    (let vals := fun n => if n = b!"name" then b!"Ann Lee" else b!"50%?"
     (∀ s ∈ p.segments, Whole (standsFor vals s)) ∧ link pathEscape vals p.segments = b!"/users/Ann%20Lee/files/50%25%3F" ∧
      pathUnescape (link pathEscape vals p.segments) = some path) ∧
    lookup plainExt false m path freshBuf 20 = some (.found p labels) := by
  obtain ⟨ps, m, h1, h2, h3⟩ := checked_spec (x := plainExt) (ci := false) (l := [(b!"/users/{name}/files/{file}", 1)])
    (f := fun ps => decide (ps = [patOf plainExt false b!"/users/{name}/files/{file}" 1])) (by decide +kernel)
  rw [decide_eq_true_eq] at h2
  subst h2
  refine ⟨_, m, _, b!"/users/Ann Lee/files/50%?", [.literal, .capture, .literal, .capture], h1, List.mem_singleton.2 rfl, ?_, by decide +kernel, ?_, ?_⟩
  · intro p hp s hs
    rw [List.mem_singleton] at hp
    subst hp
    exact plain_of_B (by revert s hs; decide +kernel)
  · refine ⟨?_, by decide +kernel, by decide +kernel⟩
    unfold Whole
    decide +kernel
  · exact (h3 _ _ _).symm.trans (by decide +kernel)

/-- `é-` written with lower-case digits, and with a letter escaped that need not be. -/
example : Percent [0xc3, 0xa9, 45, 65] b!"%c3%A9-%41" :=
  .escaped (.lower 2 (by decide)) (.digit 3 (by decide)) (.escaped (.upper 0 (by decide)) (.digit 9 (by decide)) (.same (by decide)
    (.escaped (.digit 4 (by decide)) (.digit 1 (by decide)) .nil)))

/-- C117 fails for a text that is empty, has a slash or is `..`: no request whatever gives it to a
variable of the pattern that answers. -/
theorem c117_violated_never {x : Ext} {ci : Bool} (hl : FoldLaws x.eqFold)
    {ps : List Pattern} {m : Matcher} (hr : Registered x ci sortSiblings ps m) (hplain : ∀ p ∈ ps, ∀ s ∈ p.segments, Plain ci s)
    {path : Str} {buf : List USeg} (hb : buf.length = 19) (hlen : path.length ≤ 65535) (hf : Fits path)
    {fuel : Nat} {p : Pattern} {labels : List MT} (h : lookup x ci m path buf fuel = some (.found p labels)) (hpieces : (pieces p.raw).length < 256)
    {name v : Str} (hn : ∃ s ∈ p.segments, (s.kind = .capture ∨ s.kind = .constraint) ∧ s.varName = name) (hv : ¬ Whole v) :
    ∃ segs, parseURLPath path buf = some segs ∧ pathVarText path p labels segs name ≠ some v := by
  obtain ⟨segs, bs, h3, h4, h5⟩ := c15_variables_partial hl hr hplain hb hlen hf h hpieces
  refine ⟨segs, h3, ?_⟩
  rw [h5]
  have hsome : ∀ {ss : List Segment} {bs : List (List Str)}, All2 (fun s b => (s.kind ≠ .multiple → b.length = 1) ∧ ∀ u ∈ b, Fit x ci s u) ss bs →
      (∃ s ∈ ss, (s.kind = .capture ∨ s.kind = .constraint) ∧ s.varName = name) → ∃ t, valueIn name ss bs = some t := by
    intro ss bs h
    induction h with
    | nil => rintro ⟨s, hs, _⟩; simp at hs
    | @cons s b ss bs hr _ ih =>
      rintro ⟨t, ht, hc⟩
      rw [valueIn]
      split
      · rename_i h
        obtain ⟨u, rfl⟩ := List.length_eq_one_iff.1 (hr.1 (by rcases h.1 with h | h <;> rw [h] <;> decide))
        exact ⟨u, rfl⟩
      · rename_i h
        rcases List.mem_cons.1 ht with rfl | ht
        · exact absurd hc h
        · exact ih ⟨t, ht, hc⟩
  obtain ⟨t, ht⟩ := hsome h4.parts hn
  rw [ht, Option.getD_some]
  intro e
  rw [Option.some.injEq] at e
  subst e
  have := valueIn_mem ht
  rw [h4.joined] at this
  exact hv (segments_whole path t this)

/-- The value `a/b` in the link of `/users/{name}`: the request has three segments. -/
example : pathUnescape (link pathEscape (fun _ => b!"a/b") [{ val := b!"users", kind := .literal }, { val := b!"{name}", kind := .capture, varName := b!"name" }])
      = some b!"/users/a/b" ∧ segmentsOf b!"/users/a/b" = [b!"users", b!"a", b!"b"] ∧ ¬ Whole b!"a/b" := by
  refine ⟨by decide +kernel, by decide, ?_⟩
  unfold Whole
  decide

/-- C117 fails: with `/users/{name}` and `/users/{name}/{action}`, the link to the first with the
value `ann/delete` is answered by the second, its variables set by the value; and the link with an
empty value is answered by neither. -/
theorem c117_violated : ∃ ps m p q path path' labels segs, Registered plainExt false sortSiblings ps m ∧ p ∈ ps ∧ q ∈ ps ∧
    p.raw = b!"/users/{name}" ∧ q.raw = b!"/users/{name}/{action}" ∧
    pathUnescape (link pathEscape (fun _ => b!"ann/delete") p.segments) = some path ∧
    lookup plainExt false m path freshBuf 20 = some (.found q labels) ∧ parseURLPath path freshBuf = some segs ∧
    pathVarText path q labels segs b!"name" = some b!"ann" ∧ pathVarText path q labels segs b!"action" = some b!"delete" ∧
    pathUnescape (link pathEscape (fun _ => []) p.segments) = some path' ∧ lookup plainExt false m path' freshBuf 20 = some .none := by
  obtain ⟨ps, m, h1, h2, h3⟩ := checked_spec (x := plainExt) (ci := false) (l := [(b!"/users/{name}", 1), (b!"/users/{name}/{action}", 2)])
    (f := fun ps => ps.contains (patOf plainExt false b!"/users/{name}" 1) && ps.contains (patOf plainExt false b!"/users/{name}/{action}" 2)) (by decide +kernel)
  simp only [Bool.and_eq_true, List.contains_iff_mem] at h2
  refine ⟨ps, m, _, _, b!"/users/ann/delete", b!"/users/", [.literal, .capture, .capture], (parseURLPath b!"/users/ann/delete" freshBuf).getD [], h1, h2.1, h2.2,
    by decide +kernel, by decide +kernel, by decide +kernel, (h3 _ _ _).symm.trans (by decide +kernel), by decide +kernel, by decide +kernel, by decide +kernel,
    by decide +kernel, (h3 _ _ _).symm.trans (by decide +kernel)⟩

end Gofre.Props
