import Verif.Model.Cors
import Verif.Proofs.Cache
import Verif.Proofs.Text

namespace Gofre
open Cors

theorem setWhen_other (b : Bool) (m : Map Str) (k k₂ v : Str) (h : k₂ ≠ k) :
    Map.get? (setWhen b m k v) k₂ = Map.get? m k₂ := by
  unfold setWhen
  split
  · exact Map.get?_set_other _ _ _ _ h
  · rfl

theorem setWhen_same (b : Bool) (m : Map Str) (k v : Str) :
    Map.get? (setWhen b m k v) k = if b then some v else Map.get? m k := by
  unfold setWhen
  split
  · exact Map.get?_set_same _ _ _
  · rfl

theorem addVary_other (h : Map Str) (name k : Str) (hk : k ≠ b!"Vary") :
    Map.get? (addVary h name) k = Map.get? h k := by
  unfold addVary
  split
  · exact Map.get?_set_other _ _ _ _ hk
  · split
    · rfl
    · split <;> exact Map.get?_set_other _ _ _ _ hk

/-- Names of the headers CORS writes. -/
def corsNames : List Str :=
  [b!"Access-Control-Allow-Origin", b!"Vary", b!"Access-Control-Allow-Credentials",
   b!"Access-Control-Expose-Headers", b!"Access-Control-Max-Age", b!"Access-Control-Allow-Methods",
   b!"Access-Control-Allow-Headers"]

theorem addOrigin_other (c : Config) (r : Req) (h : Map Str) (k : Str) (h1 : k ≠ b!"Access-Control-Allow-Origin")
    (h2 : k ≠ b!"Vary") : Map.get? (addOrigin c r h) k = Map.get? h k := by
  unfold addOrigin
  split
  · exact Map.get?_set_other _ _ _ _ h1
  · rw [addVary_other _ _ _ h2]; exact Map.get?_set_other _ _ _ _ h1

theorem addOptions_other (c : Config) (h : Map Str) (k : Str) (h2 : k ≠ b!"Vary")
    (h5 : k ≠ b!"Access-Control-Max-Age") (h6 : k ≠ b!"Access-Control-Allow-Methods")
    (h7 : k ≠ b!"Access-Control-Allow-Headers") : Map.get? (addOptions c h) k = Map.get? h k := by
  unfold addOptions
  rw [setWhen_other _ _ _ _ _ h7, setWhen_other _ _ _ _ _ h6, setWhen_other _ _ _ _ _ h5,
      addVary_other _ _ _ h2, addVary_other _ _ _ h2]

theorem addStandard_other (c : Config) (r : Req) (h : Map Str) (k : Str) (hk : k ∉ corsNames) :
    Map.get? (addStandard c r h) k = Map.get? h k := by
  simp only [corsNames, List.mem_cons, List.not_mem_nil, or_false, not_or] at hk
  obtain ⟨h1, h2, h3, h4, h5, h6, h7⟩ := hk
  have base : Map.get? (addCredentials c (addOrigin c r h)) k = Map.get? h k := by
    unfold addCredentials
    rw [setWhen_other _ _ _ _ _ h4, setWhen_other _ _ _ _ _ h3, addOrigin_other _ _ _ _ h1 h2]
  unfold addStandard
  split
  · rw [addOptions_other _ _ _ h2 h5 h6 h7, base]
  · exact base

theorem addStandard_origin (c : Config) (r : Req) (h : Map Str) :
    Map.get? (addStandard c r h) b!"Access-Control-Allow-Origin" =
      some (if c.anyOriginAllowed then b!"*" else getFirst r.headers b!"Origin") := by
  have base : Map.get? (addCredentials c (addOrigin c r h)) b!"Access-Control-Allow-Origin" =
      some (if c.anyOriginAllowed then b!"*" else getFirst r.headers b!"Origin") := by
    unfold addCredentials
    rw [setWhen_other _ _ _ _ _ (by decide), setWhen_other _ _ _ _ _ (by decide)]
    unfold addOrigin
    split
    · exact Map.get?_set_same _ _ _
    · rw [addVary_other _ _ _ (by decide)]; exact Map.get?_set_same _ _ _
  unfold addStandard
  split
  · rw [addOptions_other _ _ _ (by decide) (by decide) (by decide) (by decide), base]
  · exact base

theorem addStandard_credentials (c : Config) (r : Req) (h : Map Str) :
    Map.get? (addStandard c r h) b!"Access-Control-Allow-Credentials" =
      if c.supportsCredentials then some b!"true" else Map.get? h b!"Access-Control-Allow-Credentials" := by
  have base : Map.get? (addCredentials c (addOrigin c r h)) b!"Access-Control-Allow-Credentials" =
      if c.supportsCredentials then some b!"true" else Map.get? h b!"Access-Control-Allow-Credentials" := by
    unfold addCredentials
    rw [setWhen_other _ _ _ _ _ (by decide), setWhen_same, addOrigin_other _ _ _ _ (by decide) (by decide)]
  unfold addStandard
  split
  · rw [addOptions_other _ _ _ (by decide) (by decide) (by decide) (by decide), base]
  · exact base

end Gofre
