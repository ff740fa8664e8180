import Verif.Model.Debug

/-! # What the paths of the debug endpoints stand for -/

namespace Gofre.Spec
open Gofre.Mux

/-- The page each of the paths stands for. -/
def meant : List (Str × Shown) :=
  [(b!"/debug/pprof/", .listing), (b!"/debug/pprof/allocs", .profile b!"allocs"), (b!"/debug/pprof/block", .profile b!"block"),
   (b!"/debug/pprof/goroutine", .profile b!"goroutine"), (b!"/debug/pprof/heap", .profile b!"heap"), (b!"/debug/pprof/mutex", .profile b!"mutex"),
   (b!"/debug/pprof/threadcreate", .profile b!"threadcreate"), (b!"/debug/pprof/cmdline", .cmdline), (b!"/debug/pprof/profile", .cpu),
   (b!"/debug/pprof/symbol", .symbol), (b!"/debug/pprof/trace", .trace), (b!"/debug/vars", .vars)]

/-- The prefix of a mux adds something to the path: a piece that is neither empty nor `**`. -/
def Adds (pre : Str) : Prop := ∃ v ∈ splitOn slash pre, v ≠ [] ∧ v ≠ b!"**"

end Gofre.Spec
