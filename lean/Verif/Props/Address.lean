import Verif.Props.Query
import Verif.Spec.Address

/-!
# The text of the address users are sent to

Property C92.
-/

namespace Gofre.Props
open Gofre.OAuth Gofre.Spec

theorem unreserved_iff (c : UInt8) : unreserved c = true ↔ c ∈ unreservedChars := by
  revert c; apply byteCases; decide +kernel

theorem upperHex_digits (c : UInt8) : [upperHex (c >>> 4), upperHex (c &&& 15)] =
    [(b!"0123456789ABCDEF").getD (c.toNat / 16) 0, (b!"0123456789ABCDEF").getD (c.toNat % 16) 0] := by
  revert c; apply byteCases; decide +kernel

theorem escape_write (s : Str) : queryEscape s = formWrite s := by
  induction s with
  | nil => rfl
  | cons c l ih =>
    have h := upperHex_digits c
    simp only [List.cons.injEq, and_true] at h
    rw [queryEscape, ih]
    conv => rhs; rw [formWrite, List.flatMap_cons]
    by_cases hu : c ∈ unreservedChars
    · rw [if_pos ((unreserved_iff c).2 hu), if_pos hu]; rfl
    · rw [if_neg fun h => hu ((unreserved_iff c).1 h), if_neg hu]
      split
      · rfl
      · rw [h.1, h.2]; rfl

theorem encode_text (m : Map Str) : encodeValues m = joinWith 38 ((formPairs (encodeValues m)).map pairWrite) := by
  have h : formPairs (encodeValues m) = sortKeys m := by rw [encodeValues, formPairs_join]
  rw [h, encodeValues]
  congr 1
  refine List.map_congr_left fun kv _ => ?_
  rw [encodePair, escape_write, escape_write]
  rfl

/-- C92, the text of the query: the pairs it stands for, each written as RFC 3986 and the form standard say, in alphabetical order of the names;
so the same configuration, state and redirect address always give the same text. -/
theorem c92_text (g : GitHub) (o : Google) (redirect state : Str) (b : Bool) :
    (queryOf (g.initiateUrl redirect state b) = joinWith 38 ((formPairs (queryOf (g.initiateUrl redirect state b))).map pairWrite) ∧
      ((formPairs (queryOf (g.initiateUrl redirect state b))).map (·.1)).Sublist
        [b!"allow_signup", b!"client_id", b!"login", b!"redirect_uri", b!"scope", b!"state"]) ∧
    (queryOf (o.initiateUrl redirect state b) = joinWith 38 ((formPairs (queryOf (o.initiateUrl redirect state b))).map pairWrite) ∧
      ((formPairs (queryOf (o.initiateUrl redirect state b))).map (·.1)).Sublist
        [b!"access_type", b!"client_id", b!"include_granted_scopes", b!"login_hint", b!"prompt", b!"redirect_uri", b!"response_type", b!"scope",
          b!"state"]) := by
  have hg := (queryOf_encode (e := authorizeEndpoint .github) (by decide) (g.params redirect state b)).1
  have ho := (queryOf_encode (e := authorizeEndpoint .google) (by decide) (o.params redirect state b)).1
  rw [GitHub.initiateUrl, Google.initiateUrl, hg, ho]
  have hs : ∀ m, formPairs (encodeValues m) = sortKeys m := fun m => by rw [encodeValues, formPairs_join]
  refine ⟨⟨encode_text _, ?_⟩, encode_text _, ?_⟩
  · rw [hs, GitHub.params]
    by_cases h1 : g.login = [] <;> by_cases h2 : g.scopes.length > 0 <;> simp only [h1, h2, ne_eq, not_true, not_false_iff, if_true, if_false] <;>
      simp [sortKeys, insertKey, strLe]
  · rw [hs, Google.params]
    by_cases h1 : o.loginHint = [] <;> by_cases h2 : o.prompts.length > 0 <;> cases h3 : o.accessTypeOffline <;>
      simp only [h1, h2, ne_eq, not_true, not_false_iff, if_true, if_false] <;>
      simp [sortKeys, insertKey, strLe]
    exact List.isSublist_iff_sublist.1 (by decide)

example : (⟨b!"a~b", b!"x y", false, []⟩ : GitHub).initiateUrl b!"http://h" b!"s" true =
    b!"https://github.com/login/oauth/authorize?allow_signup=false&client_id=a~b&login=x+y&redirect_uri=http%3A%2F%2Fh&state=s" := by
  decide +kernel

end Gofre.Props
