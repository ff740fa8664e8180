import Verif.Props.Account
import Verif.Props.Address
import Verif.Props.AnyCache
import Verif.Props.App
import Verif.Props.Assets
import Verif.Props.Auth
import Verif.Props.Browser
import Verif.Props.Build
import Verif.Props.Cache
import Verif.Props.Chars
import Verif.Props.Complete
import Verif.Props.Compress
import Verif.Props.Config
import Verif.Props.Construct
import Verif.Props.Context
import Verif.Props.Cookies
import Verif.Props.Corners
import Verif.Props.Cors
import Verif.Props.Cost
import Verif.Props.Crash
import Verif.Props.Csrf
import Verif.Props.Debug
import Verif.Props.Dump
import Verif.Props.Escape
import Verif.Props.Events
import Verif.Props.Exact
import Verif.Props.Example
import Verif.Props.ExampleAuth
import Verif.Props.Expose
import Verif.Props.Fields
import Verif.Props.Flow
import Verif.Props.Fold
import Verif.Props.Glob
import Verif.Props.Guard
import Verif.Props.Handled
import Verif.Props.Head
import Verif.Props.Hidden
import Verif.Props.HighPriority
import Verif.Props.Interim
import Verif.Props.Links
import Verif.Props.Login
import Verif.Props.LoginFlow
import Verif.Props.LoginWrapped
import Verif.Props.Long
import Verif.Props.LongApp
import Verif.Props.LongLogin
import Verif.Props.Many
import Verif.Props.Memo
import Verif.Props.Middleware
import Verif.Props.Mixup
import Verif.Props.Mux
import Verif.Props.MuxSame
import Verif.Props.Names
import Verif.Props.Nested
import Verif.Props.Nonce
import Verif.Props.OAuth
import Verif.Props.OnErrors
import Verif.Props.Once
import Verif.Props.OrderLong
import Verif.Props.Passing
import Verif.Props.Pattern
import Verif.Props.Pool
import Verif.Props.Priority
import Verif.Props.Providers
import Verif.Props.Purpose
import Verif.Props.Query
import Verif.Props.Race
import Verif.Props.Readme
import Verif.Props.Refuse
import Verif.Props.Report
import Verif.Props.Response
import Verif.Props.Resume
import Verif.Props.Reuse
import Verif.Props.Route
import Verif.Props.Router
import Verif.Props.Scope
import Verif.Props.Security
import Verif.Props.Sent
import Verif.Props.Serve
import Verif.Props.Shadow
import Verif.Props.ShadowChain
import Verif.Props.ShadowServed
import Verif.Props.ShadowText
import Verif.Props.Shared
import Verif.Props.Sharp
import Verif.Props.SharpResp
import Verif.Props.Silent
import Verif.Props.SimpleApp
import Verif.Props.SimpleRoutes
import Verif.Props.Sse
import Verif.Props.Stack
import Verif.Props.Stars
import Verif.Props.Starts
import Verif.Props.Stray
import Verif.Props.Stream
import Verif.Props.SubRouter
import Verif.Props.Tabs
import Verif.Props.TailPriority
import Verif.Props.Takeover
import Verif.Props.Token
import Verif.Props.Url
import Verif.Props.Variables

/-!
# Axioms of the theorems named in `MANIFEST.json`

Each message is checked by the build.
-/

set_option format.width 100000

/-- info: 'Gofre.Props.c01_accepts_only_described' depends on axioms: [propext, Classical.choice, Quot.sound] -/
#guard_msgs in #print axioms Gofre.Props.c01_accepts_only_described

/-- info: 'Gofre.Props.c02_exact' depends on axioms: [propext, Classical.choice, Quot.sound] -/
#guard_msgs in #print axioms Gofre.Props.c02_exact

/-- info: 'Gofre.Props.c02_violated' depends on axioms: [propext, Quot.sound] -/
#guard_msgs in #print axioms Gofre.Props.c02_violated

/-- info: 'Gofre.Props.c02_accepts_all_described_partial' depends on axioms: [propext, Classical.choice, Quot.sound] -/
#guard_msgs in #print axioms Gofre.Props.c02_accepts_all_described_partial

/-- info: 'Gofre.Props.c02_trailing_star_partial' depends on axioms: [propext, Classical.choice, Quot.sound] -/
#guard_msgs in #print axioms Gofre.Props.c02_trailing_star_partial

/-- info: 'Gofre.Props.c03_violated' depends on axioms: [propext, Quot.sound] -/
#guard_msgs in #print axioms Gofre.Props.c03_violated

/-- info: 'Gofre.Props.c03_no_crash_partial' depends on axioms: [propext, Classical.choice, Quot.sound] -/
#guard_msgs in #print axioms Gofre.Props.c03_no_crash_partial

/-- info: 'Gofre.Props.c03_safe_patterns_partial' depends on axioms: [propext, Classical.choice, Quot.sound] -/
#guard_msgs in #print axioms Gofre.Props.c03_safe_patterns_partial

/-- info: 'Gofre.Props.c03_exact' depends on axioms: [propext, Classical.choice, Quot.sound] -/
#guard_msgs in #print axioms Gofre.Props.c03_exact

/-- info: 'Gofre.Props.c04_terminates' depends on axioms: [propext, Classical.choice, Quot.sound] -/
#guard_msgs in #print axioms Gofre.Props.c04_terminates

/-- info: 'Gofre.Props.c04_bound' depends on axioms: [propext, Classical.choice, Quot.sound] -/
#guard_msgs in #print axioms Gofre.Props.c04_bound

/-- info: 'Gofre.Props.c05_accepts_iff' depends on axioms: [propext, Quot.sound] -/
#guard_msgs in #print axioms Gofre.Props.c05_accepts_iff

/-- info: 'Gofre.Props.c05_segments' depends on axioms: [propext, Quot.sound] -/
#guard_msgs in #print axioms Gofre.Props.c05_segments

/-- info: 'Gofre.Props.c05_no_panic' depends on axioms: [propext, Quot.sound] -/
#guard_msgs in #print axioms Gofre.Props.c05_no_panic

/-- info: 'Gofre.Props.c06_classified' depends on axioms: [propext, Quot.sound] -/
#guard_msgs in #print axioms Gofre.Props.c06_classified

/-- info: 'Gofre.Props.c06_variables' depends on axioms: [propext, Quot.sound] -/
#guard_msgs in #print axioms Gofre.Props.c06_variables

/-- info: 'Gofre.Props.c06_unambiguous' depends on axioms: [propext, Quot.sound] -/
#guard_msgs in #print axioms Gofre.Props.c06_unambiguous

/-- info: 'Gofre.Props.c07_hangs_is_divergence' depends on axioms: [propext, Classical.choice, Quot.sound] -/
#guard_msgs in #print axioms Gofre.Props.c07_hangs_is_divergence

/-- info: 'Gofre.Props.c07_violated' depends on axioms: [propext] -/
#guard_msgs in #print axioms Gofre.Props.c07_violated

/-- info: 'Gofre.Props.c07_terminates_partial' depends on axioms: [propext, Classical.choice, Quot.sound] -/
#guard_msgs in #print axioms Gofre.Props.c07_terminates_partial

/-- info: 'Gofre.Props.c07_exact' depends on axioms: [propext, Classical.choice, Quot.sound] -/
#guard_msgs in #print axioms Gofre.Props.c07_exact

/-- info: 'Gofre.Props.c07_single_partial' depends on axioms: [propext, Classical.choice, Quot.sound] -/
#guard_msgs in #print axioms Gofre.Props.c07_single_partial

/-- info: 'Gofre.Props.c08_priority_number' depends on axioms: [propext, Classical.choice, Quot.sound] -/
#guard_msgs in #print axioms Gofre.Props.c08_priority_number

/-- info: 'Gofre.Props.c08_one_double_star_partial' depends on axioms: [propext, Classical.choice, Quot.sound] -/
#guard_msgs in #print axioms Gofre.Props.c08_one_double_star_partial

/-- info: 'Gofre.Props.c08_violated' depends on axioms: [propext] -/
#guard_msgs in #print axioms Gofre.Props.c08_violated

/-- info: 'Gofre.Props.c08_tail_number' depends on axioms: [propext, Classical.choice, Quot.sound] -/
#guard_msgs in #print axioms Gofre.Props.c08_tail_number

/-- info: 'Gofre.Props.c08_tail_partial' depends on axioms: [propext, Classical.choice, Quot.sound] -/
#guard_msgs in #print axioms Gofre.Props.c08_tail_partial

/-- info: 'Gofre.Props.c09_count_mod' depends on axioms: [propext, Quot.sound] -/
#guard_msgs in #print axioms Gofre.Props.c09_count_mod

/-- info: 'Gofre.Props.c09_violated' depends on axioms: [propext, Quot.sound] -/
#guard_msgs in #print axioms Gofre.Props.c09_violated

/-- info: 'Gofre.Props.c09_below_256_partial' depends on axioms: [propext, Quot.sound] -/
#guard_msgs in #print axioms Gofre.Props.c09_below_256_partial

/-- info: 'Gofre.Props.c09_exact' depends on axioms: [propext, Quot.sound] -/
#guard_msgs in #print axioms Gofre.Props.c09_exact

/-- info: 'Gofre.Props.c10_normalised' depends on axioms: [propext, Classical.choice, Quot.sound] -/
#guard_msgs in #print axioms Gofre.Props.c10_normalised

/-- info: 'Gofre.Props.c11_in_bounds' depends on axioms: [propext, Classical.choice, Quot.sound] -/
#guard_msgs in #print axioms Gofre.Props.c11_in_bounds

/-- info: 'Gofre.Props.c11_safe_values' depends on axioms: [propext, Classical.choice, Quot.sound] -/
#guard_msgs in #print axioms Gofre.Props.c11_safe_values

/-- info: 'Gofre.Props.c12_exact' depends on axioms: [propext, Classical.choice, Quot.sound] -/
#guard_msgs in #print axioms Gofre.Props.c12_exact

/-- info: 'Gofre.Props.c12_violated' depends on axioms: [propext] -/
#guard_msgs in #print axioms Gofre.Props.c12_violated

/-- info: 'Gofre.Props.c12_overlong_partial' depends on axioms: [propext, Classical.choice, Quot.sound] -/
#guard_msgs in #print axioms Gofre.Props.c12_overlong_partial

/-- info: 'Gofre.Props.c13_exact' depends on axioms: [propext, Classical.choice, Quot.sound] -/
#guard_msgs in #print axioms Gofre.Props.c13_exact

/-- info: 'Gofre.Props.c13_violated' depends on axioms: [propext, Quot.sound] -/
#guard_msgs in #print axioms Gofre.Props.c13_violated

/-- info: 'Gofre.Props.c13_exact_partial' depends on axioms: [propext, Classical.choice, Quot.sound] -/
#guard_msgs in #print axioms Gofre.Props.c13_exact_partial

/-- info: 'Gofre.Props.c14_violated_long' depends on axioms: [propext, Classical.choice, Quot.sound] -/
#guard_msgs in #print axioms Gofre.Props.c14_violated_long

/-- info: 'Gofre.Props.c14_violated' depends on axioms: [propext, Quot.sound] -/
#guard_msgs in #print axioms Gofre.Props.c14_violated

/-- info: 'Gofre.Props.c14_described_partial' depends on axioms: [propext, Classical.choice, Quot.sound] -/
#guard_msgs in #print axioms Gofre.Props.c14_described_partial

/-- info: 'Gofre.Props.c14_overflow' depends on axioms: [propext, Classical.choice, Quot.sound] -/
#guard_msgs in #print axioms Gofre.Props.c14_overflow

/-- info: 'Gofre.Props.c14_stands' depends on axioms: [propext, Classical.choice, Quot.sound] -/
#guard_msgs in #print axioms Gofre.Props.c14_stands

/-- info: 'Gofre.Props.c14_culprit' depends on axioms: [propext, Classical.choice, Quot.sound] -/
#guard_msgs in #print axioms Gofre.Props.c14_culprit

/-- info: 'Gofre.Props.c14_own_partial' depends on axioms: [propext, Classical.choice, Quot.sound] -/
#guard_msgs in #print axioms Gofre.Props.c14_own_partial

/-- info: 'Gofre.Props.c15_violated_long' depends on axioms: [propext, Classical.choice, Quot.sound] -/
#guard_msgs in #print axioms Gofre.Props.c15_violated_long

/-- info: 'Gofre.Props.c15_variables_partial' depends on axioms: [propext, Classical.choice, Quot.sound] -/
#guard_msgs in #print axioms Gofre.Props.c15_variables_partial

/-- info: 'Gofre.Props.c15_stands' depends on axioms: [propext, Classical.choice, Quot.sound] -/
#guard_msgs in #print axioms Gofre.Props.c15_stands

/-- info: 'Gofre.Props.c15_own_partial' depends on axioms: [propext, Classical.choice, Quot.sound] -/
#guard_msgs in #print axioms Gofre.Props.c15_own_partial

/-- info: 'Gofre.Props.c15_violated' depends on axioms: [propext, Quot.sound] -/
#guard_msgs in #print axioms Gofre.Props.c15_violated

/-- info: 'Gofre.Props.c15_violated_constraint' depends on axioms: [propext, Quot.sound] -/
#guard_msgs in #print axioms Gofre.Props.c15_violated_constraint

/-- info: 'Gofre.Props.c16_terminates' depends on axioms: [propext, Classical.choice, Quot.sound] -/
#guard_msgs in #print axioms Gofre.Props.c16_terminates

/-- info: 'Gofre.Props.c17_exact' depends on axioms: [propext, Classical.choice, Quot.sound] -/
#guard_msgs in #print axioms Gofre.Props.c17_exact

/-- info: 'Gofre.Props.c17_violated' depends on axioms: [propext] -/
#guard_msgs in #print axioms Gofre.Props.c17_violated

/-- info: 'Gofre.Props.c17_no_crash_partial' depends on axioms: [propext, Classical.choice, Quot.sound] -/
#guard_msgs in #print axioms Gofre.Props.c17_no_crash_partial

/-- info: 'Gofre.Props.c17_simple_partial' depends on axioms: [propext, Classical.choice, Quot.sound] -/
#guard_msgs in #print axioms Gofre.Props.c17_simple_partial

/-- info: 'Gofre.Props.c18_violated' depends on axioms: [propext, Quot.sound] -/
#guard_msgs in #print axioms Gofre.Props.c18_violated

/-- info: 'Gofre.Props.c18_violated_stars' depends on axioms: [propext, Quot.sound] -/
#guard_msgs in #print axioms Gofre.Props.c18_violated_stars

/-- info: 'Gofre.Props.c18_served_partial' depends on axioms: [propext, Classical.choice, Quot.sound] -/
#guard_msgs in #print axioms Gofre.Props.c18_served_partial

/-- info: 'Gofre.Props.c18_single_all_partial' depends on axioms: [propext, Classical.choice, Quot.sound] -/
#guard_msgs in #print axioms Gofre.Props.c18_single_all_partial

/-- info: 'Gofre.Props.c18_handled_partial' depends on axioms: [propext, Classical.choice, Quot.sound] -/
#guard_msgs in #print axioms Gofre.Props.c18_handled_partial

/-- info: 'Gofre.Props.c18_exact_partial' depends on axioms: [propext, Classical.choice, Quot.sound] -/
#guard_msgs in #print axioms Gofre.Props.c18_exact_partial

/-- info: 'Gofre.Props.c18_violated_many' depends on axioms: [propext, Classical.choice, Quot.sound] -/
#guard_msgs in #print axioms Gofre.Props.c18_violated_many

/-- info: 'Gofre.Props.c18_simple_partial' depends on axioms: [propext, Classical.choice, Quot.sound] -/
#guard_msgs in #print axioms Gofre.Props.c18_simple_partial

/-- info: 'Gofre.Props.c18_stars_partial' depends on axioms: [propext, Classical.choice, Quot.sound] -/
#guard_msgs in #print axioms Gofre.Props.c18_stars_partial

/-- info: 'Gofre.Props.c18_single_partial' depends on axioms: [propext, Classical.choice, Quot.sound] -/
#guard_msgs in #print axioms Gofre.Props.c18_single_partial

/-- info: 'Gofre.Props.c18_single_exact_partial' depends on axioms: [propext, Classical.choice, Quot.sound] -/
#guard_msgs in #print axioms Gofre.Props.c18_single_exact_partial

/-- info: 'Gofre.Props.c19_violated' depends on axioms: [propext, Quot.sound] -/
#guard_msgs in #print axioms Gofre.Props.c19_violated

/-- info: 'Gofre.Props.c19_violated_wildcards' depends on axioms: [propext] -/
#guard_msgs in #print axioms Gofre.Props.c19_violated_wildcards

/-- info: 'Gofre.Props.c19_most_specific_partial' depends on axioms: [propext, Classical.choice, Quot.sound] -/
#guard_msgs in #print axioms Gofre.Props.c19_most_specific_partial

/-- info: 'Gofre.Props.c19_handled_partial' depends on axioms: [propext, Classical.choice, Quot.sound] -/
#guard_msgs in #print axioms Gofre.Props.c19_handled_partial

/-- info: 'Gofre.Props.c19_exact_partial' depends on axioms: [propext, Classical.choice, Quot.sound] -/
#guard_msgs in #print axioms Gofre.Props.c19_exact_partial

/-- info: 'Gofre.Props.c19_violated_long' depends on axioms: [propext, Quot.sound] -/
#guard_msgs in #print axioms Gofre.Props.c19_violated_long

/-- info: 'Gofre.Props.c19_simple_partial' depends on axioms: [propext, Classical.choice, Quot.sound] -/
#guard_msgs in #print axioms Gofre.Props.c19_simple_partial

/-- info: 'Gofre.Props.c20_violated' depends on axioms: [propext] -/
#guard_msgs in #print axioms Gofre.Props.c20_violated

/-- info: 'Gofre.Props.c20_order_partial' depends on axioms: [propext, Classical.choice, Quot.sound] -/
#guard_msgs in #print axioms Gofre.Props.c20_order_partial

/-- info: 'Gofre.Props.c20_handled_partial' depends on axioms: [propext, Classical.choice, Quot.sound] -/
#guard_msgs in #print axioms Gofre.Props.c20_handled_partial

/-- info: 'Gofre.Props.c20_beginnings_partial' depends on axioms: [propext, Classical.choice, Quot.sound] -/
#guard_msgs in #print axioms Gofre.Props.c20_beginnings_partial

/-- info: 'Gofre.Props.c20_violated_long' depends on axioms: [propext, Quot.sound] -/
#guard_msgs in #print axioms Gofre.Props.c20_violated_long

/-- info: 'Gofre.Props.c20_violated_two_stars' depends on axioms: [propext, Quot.sound] -/
#guard_msgs in #print axioms Gofre.Props.c20_violated_two_stars

/-- info: 'Gofre.Props.c20_simple_partial' depends on axioms: [propext, Classical.choice, Quot.sound] -/
#guard_msgs in #print axioms Gofre.Props.c20_simple_partial

/-- info: 'Gofre.Props.c21_violated' depends on axioms: [propext] -/
#guard_msgs in #print axioms Gofre.Props.c21_violated

/-- info: 'Gofre.Props.c21_refused_partial' depends on axioms: [propext, Classical.choice, Quot.sound] -/
#guard_msgs in #print axioms Gofre.Props.c21_refused_partial

/-- info: 'Gofre.Props.c21_exact' depends on axioms: [propext, Classical.choice, Quot.sound] -/
#guard_msgs in #print axioms Gofre.Props.c21_exact

/-- info: 'Gofre.Props.c22_violated' depends on axioms: [propext] -/
#guard_msgs in #print axioms Gofre.Props.c22_violated

/-- info: 'Gofre.Props.c22_duplicate_partial' depends on axioms: [propext, Classical.choice, Quot.sound] -/
#guard_msgs in #print axioms Gofre.Props.c22_duplicate_partial

/-- info: 'Gofre.Props.c22_stands' depends on axioms: [propext, Classical.choice, Quot.sound] -/
#guard_msgs in #print axioms Gofre.Props.c22_stands

/-- info: 'Gofre.Props.c23_violated' depends on axioms: [propext] -/
#guard_msgs in #print axioms Gofre.Props.c23_violated

/-- info: 'Gofre.Props.c23_still_served_partial' depends on axioms: [propext, Classical.choice, Quot.sound] -/
#guard_msgs in #print axioms Gofre.Props.c23_still_served_partial

/-- info: 'Gofre.Props.c23_handled_partial' depends on axioms: [propext, Classical.choice, Quot.sound] -/
#guard_msgs in #print axioms Gofre.Props.c23_handled_partial

/-- info: 'Gofre.Props.c23_culprit_partial' depends on axioms: [propext, Classical.choice, Quot.sound] -/
#guard_msgs in #print axioms Gofre.Props.c23_culprit_partial

/-- info: 'Gofre.Props.c23_violated_many' depends on axioms: [propext, Classical.choice, Quot.sound] -/
#guard_msgs in #print axioms Gofre.Props.c23_violated_many

/-- info: 'Gofre.Props.c23_simple_partial' depends on axioms: [propext, Classical.choice, Quot.sound] -/
#guard_msgs in #print axioms Gofre.Props.c23_simple_partial

/-- info: 'Gofre.Props.c24_violated' depends on axioms: [propext] -/
#guard_msgs in #print axioms Gofre.Props.c24_violated

/-- info: 'Gofre.Props.c24_spelling_partial' depends on axioms: [propext, Classical.choice, Quot.sound] -/
#guard_msgs in #print axioms Gofre.Props.c24_spelling_partial

/-- info: 'Gofre.Props.c24_exact' depends on axioms: [propext, Classical.choice, Quot.sound] -/
#guard_msgs in #print axioms Gofre.Props.c24_exact

/-- info: 'Gofre.Props.c25_isolated' depends on axioms: [propext, Classical.choice, Quot.sound] -/
#guard_msgs in #print axioms Gofre.Props.c25_isolated

/-- info: 'Gofre.Props.c25_case_insensitive' depends on axioms: [propext, Classical.choice, Quot.sound] -/
#guard_msgs in #print axioms Gofre.Props.c25_case_insensitive

/-- info: 'Gofre.Props.c26_violated' depends on axioms: [propext] -/
#guard_msgs in #print axioms Gofre.Props.c26_violated

/-- info: 'Gofre.Props.c26_violated_nothing' depends on axioms: [propext] -/
#guard_msgs in #print axioms Gofre.Props.c26_violated_nothing

/-- info: 'Gofre.Props.c26_violated_long' depends on axioms: [propext, Classical.choice, Quot.sound] -/
#guard_msgs in #print axioms Gofre.Props.c26_violated_long

/-- info: 'Gofre.Props.c26_violated_crash' depends on axioms: [propext, Classical.choice, Quot.sound] -/
#guard_msgs in #print axioms Gofre.Props.c26_violated_crash

/-- info: 'Gofre.Props.c26_dispatch_partial' depends on axioms: [propext, Classical.choice, Quot.sound] -/
#guard_msgs in #print axioms Gofre.Props.c26_dispatch_partial

/-- info: 'Gofre.Props.c26_no_method' depends on axioms: [propext, Classical.choice, Quot.sound] -/
#guard_msgs in #print axioms Gofre.Props.c26_no_method

/-- info: 'Gofre.Props.c26_not_found_partial' depends on axioms: [propext, Classical.choice, Quot.sound] -/
#guard_msgs in #print axioms Gofre.Props.c26_not_found_partial

/-- info: 'Gofre.Props.c26_simple_partial' depends on axioms: [propext, Classical.choice, Quot.sound] -/
#guard_msgs in #print axioms Gofre.Props.c26_simple_partial

/-- info: 'Gofre.Props.c26_stray' depends on axioms: [propext, Classical.choice, Quot.sound] -/
#guard_msgs in #print axioms Gofre.Props.c26_stray

/-- info: 'Gofre.Props.c26_overlong' depends on axioms: [propext, Classical.choice, Quot.sound] -/
#guard_msgs in #print axioms Gofre.Props.c26_overlong

/-- info: 'Gofre.Props.c26_not_found_own_partial' depends on axioms: [propext, Classical.choice, Quot.sound] -/
#guard_msgs in #print axioms Gofre.Props.c26_not_found_own_partial

/-- info: 'Gofre.Props.c26_violated_stray' depends on axioms: [propext, Quot.sound] -/
#guard_msgs in #print axioms Gofre.Props.c26_violated_stray

/-- info: 'Gofre.Props.c27_same_answer' depends on axioms: [propext, Classical.choice, Quot.sound] -/
#guard_msgs in #print axioms Gofre.Props.c27_same_answer

/-- info: 'Gofre.Props.c27_same_dispatch' depends on axioms: [propext, Classical.choice, Quot.sound] -/
#guard_msgs in #print axioms Gofre.Props.c27_same_dispatch

/-- info: 'Gofre.Props.c28_wrap_order' depends on axioms: [propext] -/
#guard_msgs in #print axioms Gofre.Props.c28_wrap_order

/-- info: 'Gofre.Props.c28_trace' depends on axioms: [propext, Quot.sound] -/
#guard_msgs in #print axioms Gofre.Props.c28_trace

/-- info: 'Gofre.Props.c28_registered' depends on axioms: [propext, Classical.choice, Quot.sound] -/
#guard_msgs in #print axioms Gofre.Props.c28_registered

/-- info: 'Gofre.Props.c29_violated' depends on axioms: [propext] -/
#guard_msgs in #print axioms Gofre.Props.c29_violated

/-- info: 'Gofre.Props.c29_common_scope_partial' depends on axioms: [propext, Quot.sound] -/
#guard_msgs in #print axioms Gofre.Props.c29_common_scope_partial

/-- info: 'Gofre.Props.c29_routes_stable' depends on axioms: [propext, Quot.sound] -/
#guard_msgs in #print axioms Gofre.Props.c29_routes_stable

/-- info: 'Gofre.Props.c29_isolated_partial' depends on axioms: [propext, Quot.sound] -/
#guard_msgs in #print axioms Gofre.Props.c29_isolated_partial

/-- info: 'Gofre.Props.c29_exact' depends on axioms: [propext, Classical.choice, Quot.sound] -/
#guard_msgs in #print axioms Gofre.Props.c29_exact

/-- info: 'Gofre.Props.c30_resolve_path' depends on axioms: [propext] -/
#guard_msgs in #print axioms Gofre.Props.c30_resolve_path

/-- info: 'Gofre.Props.c30_one_slash' depends on axioms: [propext] -/
#guard_msgs in #print axioms Gofre.Props.c30_one_slash

/-- info: 'Gofre.Props.c30_violated' depends on axioms: [propext] -/
#guard_msgs in #print axioms Gofre.Props.c30_violated

/-- info: 'Gofre.Props.c30_prefixes_partial' depends on axioms: [propext, Quot.sound] -/
#guard_msgs in #print axioms Gofre.Props.c30_prefixes_partial

/-- info: 'Gofre.Props.c30_exact' depends on axioms: [propext, Classical.choice, Quot.sound] -/
#guard_msgs in #print axioms Gofre.Props.c30_exact

/-- info: 'Gofre.Props.c31_every_scope_has_levels' depends on axioms: [propext, Quot.sound] -/
#guard_msgs in #print axioms Gofre.Props.c31_every_scope_has_levels

/-- info: 'Gofre.Props.c31_implies_iff' depends on axioms: [propext, Classical.choice, Quot.sound] -/
#guard_msgs in #print axioms Gofre.Props.c31_implies_iff

/-- info: 'Gofre.Props.c32_refl' depends on axioms: [propext, Classical.choice, Quot.sound] -/
#guard_msgs in #print axioms Gofre.Props.c32_refl

/-- info: 'Gofre.Props.c32_trans' depends on axioms: [propext, Classical.choice, Quot.sound] -/
#guard_msgs in #print axioms Gofre.Props.c32_trans

/-- info: 'Gofre.Props.c32_mono' depends on axioms: [propext, Classical.choice, Quot.sound] -/
#guard_msgs in #print axioms Gofre.Props.c32_mono

/-- info: 'Gofre.Props.c33_violated' depends on axioms: [propext, Classical.choice, Quot.sound] -/
#guard_msgs in #print axioms Gofre.Props.c33_violated

/-- info: 'Gofre.Props.c33_denied_wins_partial' depends on axioms: [propext, Classical.choice, Quot.sound] -/
#guard_msgs in #print axioms Gofre.Props.c33_denied_wins_partial

/-- info: 'Gofre.Props.c33_single_access_partial' depends on axioms: [propext, Classical.choice, Quot.sound] -/
#guard_msgs in #print axioms Gofre.Props.c33_single_access_partial

/-- info: 'Gofre.Props.c33_exact' depends on axioms: [propext, Classical.choice, Quot.sound] -/
#guard_msgs in #print axioms Gofre.Props.c33_exact

/-- info: 'Gofre.Props.c34_user_has_permission_iff' depends on axioms: [propext, Classical.choice, Quot.sound] -/
#guard_msgs in #print axioms Gofre.Props.c34_user_has_permission_iff

/-- info: 'Gofre.Props.c34_groups_monotone' depends on axioms: [propext, Classical.choice, Quot.sound] -/
#guard_msgs in #print axioms Gofre.Props.c34_groups_monotone

/-- info: 'Gofre.Props.c34_has_role_iff' depends on axioms: [propext, Quot.sound] -/
#guard_msgs in #print axioms Gofre.Props.c34_has_role_iff

/-- info: 'Gofre.Props.c35_round_trip' depends on axioms: [propext, Classical.choice, Quot.sound] -/
#guard_msgs in #print axioms Gofre.Props.c35_round_trip

/-- info: 'Gofre.Props.c35_parse_sound' depends on axioms: [propext, Classical.choice, Quot.sound] -/
#guard_msgs in #print axioms Gofre.Props.c35_parse_sound

/-- info: 'Gofre.Props.c35_new_iff' depends on axioms: [propext, Classical.choice, Quot.sound] -/
#guard_msgs in #print axioms Gofre.Props.c35_new_iff

/-- info: 'Gofre.Props.c35_parse_exact' depends on axioms: [propext, Classical.choice, Quot.sound] -/
#guard_msgs in #print axioms Gofre.Props.c35_parse_exact

/-- info: 'Gofre.Props.c36_all_permissions_iff' depends on axioms: [propext, Classical.choice, Quot.sound] -/
#guard_msgs in #print axioms Gofre.Props.c36_all_permissions_iff

/-- info: 'Gofre.Props.c37_authorize_all' depends on axioms: [propext, Quot.sound] -/
#guard_msgs in #print axioms Gofre.Props.c37_authorize_all

/-- info: 'Gofre.Props.c37_authorize_any' depends on axioms: [propext, Quot.sound] -/
#guard_msgs in #print axioms Gofre.Props.c37_authorize_any

/-- info: 'Gofre.Props.c37_authorize_fixed' depends on axioms: [propext, Quot.sound] -/
#guard_msgs in #print axioms Gofre.Props.c37_authorize_fixed

/-- info: 'Gofre.Props.c37_supplied_principal' depends on axioms: [propext, Quot.sound] -/
#guard_msgs in #print axioms Gofre.Props.c37_supplied_principal

/-- info: 'Gofre.Props.c37_supplier_fails' depends on axioms: [propext] -/
#guard_msgs in #print axioms Gofre.Props.c37_supplier_fails

/-- info: 'Gofre.Props.c38_contains_iff' depends on axioms: [propext, Classical.choice, Quot.sound] -/
#guard_msgs in #print axioms Gofre.Props.c38_contains_iff

/-- info: 'Gofre.Props.c39_unguarded_refused' depends on axioms: [propext, Quot.sound] -/
#guard_msgs in #print axioms Gofre.Props.c39_unguarded_refused

/-- info: 'Gofre.Props.c39_guarded_accepted' depends on axioms: [propext, Quot.sound] -/
#guard_msgs in #print axioms Gofre.Props.c39_guarded_accepted

/-- info: 'Gofre.Props.c39_safe_methods' depends on axioms: [propext, Quot.sound] -/
#guard_msgs in #print axioms Gofre.Props.c39_safe_methods

/-- info: 'Gofre.Props.c39_no_randomness' depends on axioms: [propext, Quot.sound] -/
#guard_msgs in #print axioms Gofre.Props.c39_no_randomness

/-- info: 'Gofre.Props.c39_default' depends on axioms: [propext, Classical.choice, Quot.sound] -/
#guard_msgs in #print axioms Gofre.Props.c39_default

/-- info: 'Gofre.Props.c40_single_use' depends on axioms: [propext, Classical.choice, Quot.sound] -/
#guard_msgs in #print axioms Gofre.Props.c40_single_use

/-- info: 'Gofre.Props.c41_violated' depends on axioms: [propext] -/
#guard_msgs in #print axioms Gofre.Props.c41_violated

/-- info: 'Gofre.Props.c41_no_reuse_after_removal_partial' depends on axioms: [propext, Classical.choice, Quot.sound] -/
#guard_msgs in #print axioms Gofre.Props.c41_no_reuse_after_removal_partial

/-- info: 'Gofre.Props.c41_violated_never' depends on axioms: [propext] -/
#guard_msgs in #print axioms Gofre.Props.c41_violated_never

/-- info: 'Gofre.Props.c42_nonce_hex' depends on axioms: [propext, Quot.sound] -/
#guard_msgs in #print axioms Gofre.Props.c42_nonce_hex

/-- info: 'Gofre.Props.c43_only_issued_states' depends on axioms: [propext, Classical.choice, Quot.sound] -/
#guard_msgs in #print axioms Gofre.Props.c43_only_issued_states

/-- info: 'Gofre.Props.c43_unissued_refused' depends on axioms: [propext, Classical.choice, Quot.sound] -/
#guard_msgs in #print axioms Gofre.Props.c43_unissued_refused

/-- info: 'Gofre.Props.c44_violated' depends on axioms: [propext] -/
#guard_msgs in #print axioms Gofre.Props.c44_violated

/-- info: 'Gofre.Props.c44_window_partial' depends on axioms: [propext, Classical.choice, Quot.sound] -/
#guard_msgs in #print axioms Gofre.Props.c44_window_partial

/-- info: 'Gofre.Props.c44_violated_never' depends on axioms: [propext] -/
#guard_msgs in #print axioms Gofre.Props.c44_violated_never

/-- info: 'Gofre.Props.c45_violated' depends on axioms: [propext] -/
#guard_msgs in #print axioms Gofre.Props.c45_violated

/-- info: 'Gofre.Props.c45_token_exact' depends on axioms: [propext, Quot.sound] -/
#guard_msgs in #print axioms Gofre.Props.c45_token_exact

/-- info: 'Gofre.Props.c45_user_exact' depends on axioms: [propext, Quot.sound] -/
#guard_msgs in #print axioms Gofre.Props.c45_user_exact

/-- info: 'Gofre.Props.c45_token_from_reply' depends on axioms: [propext, Quot.sound] -/
#guard_msgs in #print axioms Gofre.Props.c45_token_from_reply

/-- info: 'Gofre.Props.c46_violated' depends on axioms: [propext, Quot.sound] -/
#guard_msgs in #print axioms Gofre.Props.c46_violated

/-- info: 'Gofre.Props.c46_github_partial' depends on axioms: [propext, Classical.choice, Quot.sound] -/
#guard_msgs in #print axioms Gofre.Props.c46_github_partial

/-- info: 'Gofre.Props.c46_github_exact' depends on axioms: [propext, Classical.choice, Quot.sound] -/
#guard_msgs in #print axioms Gofre.Props.c46_github_exact

/-- info: 'Gofre.Props.c46_google' depends on axioms: [propext, Classical.choice, Quot.sound] -/
#guard_msgs in #print axioms Gofre.Props.c46_google

/-- info: 'Gofre.Props.c46_state_in_url' depends on axioms: [propext, Classical.choice, Quot.sound] -/
#guard_msgs in #print axioms Gofre.Props.c46_state_in_url

/-- info: 'Gofre.Props.c47_violated' depends on axioms: [propext] -/
#guard_msgs in #print axioms Gofre.Props.c47_violated

/-- info: 'Gofre.Props.c47_recovers_partial' depends on axioms: [propext] -/
#guard_msgs in #print axioms Gofre.Props.c47_recovers_partial

/-- info: 'Gofre.Props.c47_exact' depends on axioms: [propext, Quot.sound] -/
#guard_msgs in #print axioms Gofre.Props.c47_exact

/-- info: 'Gofre.Props.c48_err_response' depends on axioms: [propext] -/
#guard_msgs in #print axioms Gofre.Props.c48_err_response

/-- info: 'Gofre.Props.c48_total_with_recover' depends on axioms: [propext, Quot.sound] -/
#guard_msgs in #print axioms Gofre.Props.c48_total_with_recover

/-- info: 'Gofre.Props.c49_only_permitted' depends on axioms: [propext, Classical.choice, Quot.sound] -/
#guard_msgs in #print axioms Gofre.Props.c49_only_permitted

/-- info: 'Gofre.Props.c49_refused' depends on axioms: [propext, Classical.choice, Quot.sound] -/
#guard_msgs in #print axioms Gofre.Props.c49_refused

/-- info: 'Gofre.Props.c49_permitted_served' depends on axioms: [propext, Classical.choice, Quot.sound] -/
#guard_msgs in #print axioms Gofre.Props.c49_permitted_served

/-- info: 'Gofre.Props.c49_malformed' depends on axioms: [propext, Classical.choice, Quot.sound] -/
#guard_msgs in #print axioms Gofre.Props.c49_malformed

/-- info: 'Gofre.Props.c50_violated' depends on axioms: [propext] -/
#guard_msgs in #print axioms Gofre.Props.c50_violated

/-- info: 'Gofre.Props.c50_no_data_returned_partial' depends on axioms: [propext, Classical.choice, Quot.sound] -/
#guard_msgs in #print axioms Gofre.Props.c50_no_data_returned_partial

/-- info: 'Gofre.Props.c50_violated_never' depends on axioms: [propext] -/
#guard_msgs in #print axioms Gofre.Props.c50_violated_never

/-- info: 'Gofre.Props.c51_violated' depends on axioms: [propext] -/
#guard_msgs in #print axioms Gofre.Props.c51_violated

/-- info: 'Gofre.Props.c51_partial' depends on axioms: [propext, Classical.choice, Quot.sound] -/
#guard_msgs in #print axioms Gofre.Props.c51_partial

/-- info: 'Gofre.Props.c51_violated_never' depends on axioms: [propext, Classical.choice, Quot.sound] -/
#guard_msgs in #print axioms Gofre.Props.c51_violated_never

/-- info: 'Gofre.Props.c52_vary' depends on axioms: [propext, Classical.choice, Quot.sound] -/
#guard_msgs in #print axioms Gofre.Props.c52_vary

/-- info: 'Gofre.Props.c52_only' depends on axioms: [propext, Classical.choice, Quot.sound] -/
#guard_msgs in #print axioms Gofre.Props.c52_only

/-- info: 'Gofre.Props.c52_star' depends on axioms: [propext, Classical.choice, Quot.sound] -/
#guard_msgs in #print axioms Gofre.Props.c52_star

/-- info: 'Gofre.Props.c52_answer' depends on axioms: [propext, Classical.choice, Quot.sound] -/
#guard_msgs in #print axioms Gofre.Props.c52_answer

/-- info: 'Gofre.Props.c52_answer_only' depends on axioms: [propext, Classical.choice, Quot.sound] -/
#guard_msgs in #print axioms Gofre.Props.c52_answer_only

/-- info: 'Gofre.Props.c53_read' depends on axioms: [propext, Classical.choice, Quot.sound] -/
#guard_msgs in #print axioms Gofre.Props.c53_read

/-- info: 'Gofre.Props.c53_nothing_exact' depends on axioms: [propext] -/
#guard_msgs in #print axioms Gofre.Props.c53_nothing_exact

/-- info: 'Gofre.Props.c53_headers' depends on axioms: [propext, Classical.choice, Quot.sound] -/
#guard_msgs in #print axioms Gofre.Props.c53_headers

/-- info: 'Gofre.Props.c53_handler_states' depends on axioms: [propext, Classical.choice, Quot.sound] -/
#guard_msgs in #print axioms Gofre.Props.c53_handler_states

/-- info: 'Gofre.Props.c54_listed_partial' depends on axioms: [propext, Classical.choice, Quot.sound] -/
#guard_msgs in #print axioms Gofre.Props.c54_listed_partial

/-- info: 'Gofre.Props.c54_exact_partial' depends on axioms: [propext, Classical.choice, Quot.sound] -/
#guard_msgs in #print axioms Gofre.Props.c54_exact_partial

/-- info: 'Gofre.Props.c54_unmodified_partial' depends on axioms: [propext, Classical.choice, Quot.sound] -/
#guard_msgs in #print axioms Gofre.Props.c54_unmodified_partial

/-- info: 'Gofre.Props.c54_violated' depends on axioms: [propext, Quot.sound] -/
#guard_msgs in #print axioms Gofre.Props.c54_violated

/-- info: 'Gofre.Props.c54_violated_letter' depends on axioms: [propext, Quot.sound] -/
#guard_msgs in #print axioms Gofre.Props.c54_violated_letter

/-- info: 'Gofre.Props.c55_levels' depends on axioms: [propext, Classical.choice, Quot.sound] -/
#guard_msgs in #print axioms Gofre.Props.c55_levels

/-- info: 'Gofre.Props.c55_preserves' depends on axioms: [propext] -/
#guard_msgs in #print axioms Gofre.Props.c55_preserves

/-- info: 'Gofre.Props.c55_level' depends on axioms: [propext, Classical.choice, Quot.sound] -/
#guard_msgs in #print axioms Gofre.Props.c55_level

/-- info: 'Gofre.Props.c55_middleware' depends on axioms: [propext, Classical.choice, Quot.sound] -/
#guard_msgs in #print axioms Gofre.Props.c55_middleware

/-- info: 'Gofre.Props.c56_violated_never' depends on axioms: [propext, Quot.sound] -/
#guard_msgs in #print axioms Gofre.Props.c56_violated_never

/-- info: 'Gofre.Props.c56_once' depends on axioms: [propext, Classical.choice, Quot.sound] -/
#guard_msgs in #print axioms Gofre.Props.c56_once

/-- info: 'Gofre.Props.c56_written_partial' depends on axioms: [propext, Classical.choice, Quot.sound] -/
#guard_msgs in #print axioms Gofre.Props.c56_written_partial

/-- info: 'Gofre.Props.c56_status' depends on axioms: [propext, Quot.sound] -/
#guard_msgs in #print axioms Gofre.Props.c56_status

/-- info: 'Gofre.Props.c56_invalid' depends on axioms: [propext] -/
#guard_msgs in #print axioms Gofre.Props.c56_invalid

/-- info: 'Gofre.Props.c56_violated' depends on axioms: [propext] -/
#guard_msgs in #print axioms Gofre.Props.c56_violated

/-- info: 'Gofre.Props.c56_violated_info' depends on axioms: [propext, Quot.sound] -/
#guard_msgs in #print axioms Gofre.Props.c56_violated_info

/-- info: 'Gofre.Props.c57_same_block_partial' depends on axioms: [propext, Classical.choice, Quot.sound] -/
#guard_msgs in #print axioms Gofre.Props.c57_same_block_partial

/-- info: 'Gofre.Props.c57_violated' depends on axioms: [propext] -/
#guard_msgs in #print axioms Gofre.Props.c57_violated

/-- info: 'Gofre.Props.c57_violated_spellings' depends on axioms: [propext, Classical.choice, Quot.sound] -/
#guard_msgs in #print axioms Gofre.Props.c57_violated_spellings

/-- info: 'Gofre.Props.c57_exact' depends on axioms: [propext, Classical.choice, Quot.sound] -/
#guard_msgs in #print axioms Gofre.Props.c57_exact

/-- info: 'Gofre.Props.c58_unobservable_partial' depends on axioms: [propext, Classical.choice, Quot.sound] -/
#guard_msgs in #print axioms Gofre.Props.c58_unobservable_partial

/-- info: 'Gofre.Props.c58_new_partial' depends on axioms: [propext, Classical.choice, Quot.sound] -/
#guard_msgs in #print axioms Gofre.Props.c58_new_partial

/-- info: 'Gofre.Props.c58_violated' depends on axioms: [propext] -/
#guard_msgs in #print axioms Gofre.Props.c58_violated

/-- info: 'Gofre.Props.c59_headers_partial' depends on axioms: [propext, Classical.choice, Quot.sound] -/
#guard_msgs in #print axioms Gofre.Props.c59_headers_partial

/-- info: 'Gofre.Props.c59_cookies_partial' depends on axioms: [propext, Classical.choice, Quot.sound] -/
#guard_msgs in #print axioms Gofre.Props.c59_cookies_partial

/-- info: 'Gofre.Props.c59_violated_redirect' depends on axioms: [propext] -/
#guard_msgs in #print axioms Gofre.Props.c59_violated_redirect

/-- info: 'Gofre.Props.c59_violated_never' depends on axioms: [propext] -/
#guard_msgs in #print axioms Gofre.Props.c59_violated_never

/-- info: 'Gofre.Props.c59_violated' depends on axioms: [propext] -/
#guard_msgs in #print axioms Gofre.Props.c59_violated

/-- info: 'Gofre.Props.c59_violated_cookie' depends on axioms: [propext] -/
#guard_msgs in #print axioms Gofre.Props.c59_violated_cookie

/-- info: 'Gofre.Props.c60_recovered' depends on axioms: [propext, Classical.choice, Quot.sound] -/
#guard_msgs in #print axioms Gofre.Props.c60_recovered

/-- info: 'Gofre.Props.c61_delivered' depends on axioms: [propext, Classical.choice, Quot.sound] -/
#guard_msgs in #print axioms Gofre.Props.c61_delivered

/-- info: 'Gofre.Props.c61_http1' depends on axioms: [propext] -/
#guard_msgs in #print axioms Gofre.Props.c61_http1

/-- info: 'Gofre.Props.c62_violated_never' depends on axioms: [propext, Classical.choice, Quot.sound] -/
#guard_msgs in #print axioms Gofre.Props.c62_violated_never

/-- info: 'Gofre.Props.c62_violated' depends on axioms: [propext] -/
#guard_msgs in #print axioms Gofre.Props.c62_violated

/-- info: 'Gofre.Props.c62_custom_partial' depends on axioms: [propext, Classical.choice, Quot.sound] -/
#guard_msgs in #print axioms Gofre.Props.c62_custom_partial

/-- info: 'Gofre.Props.c63_uncompressed_partial' depends on axioms: [propext, Classical.choice, Quot.sound] -/
#guard_msgs in #print axioms Gofre.Props.c63_uncompressed_partial

/-- info: 'Gofre.Props.c63_violated_never' depends on axioms: [propext, Classical.choice, Quot.sound] -/
#guard_msgs in #print axioms Gofre.Props.c63_violated_never

/-- info: 'Gofre.Props.c63_violated' depends on axioms: [propext] -/
#guard_msgs in #print axioms Gofre.Props.c63_violated

/-- info: 'Gofre.Props.c64_last_partial' depends on axioms: [propext, Quot.sound] -/
#guard_msgs in #print axioms Gofre.Props.c64_last_partial

/-- info: 'Gofre.Props.c64_distinct' depends on axioms: [propext, Quot.sound] -/
#guard_msgs in #print axioms Gofre.Props.c64_distinct

/-- info: 'Gofre.Props.c64_calls' does not depend on any axioms -/
#guard_msgs in #print axioms Gofre.Props.c64_calls

/-- info: 'Gofre.Props.c64_violated' depends on axioms: [propext] -/
#guard_msgs in #print axioms Gofre.Props.c64_violated

/-- info: 'Gofre.Props.c64_exact' depends on axioms: [propext, Quot.sound] -/
#guard_msgs in #print axioms Gofre.Props.c64_exact

/-- info: 'Gofre.Props.c65_ascii_partial' depends on axioms: [propext, Classical.choice, Quot.sound] -/
#guard_msgs in #print axioms Gofre.Props.c65_ascii_partial

/-- info: 'Gofre.Props.c65_empty' does not depend on any axioms -/
#guard_msgs in #print axioms Gofre.Props.c65_empty

/-- info: 'Gofre.Props.c65_violated_never' depends on axioms: [propext] -/
#guard_msgs in #print axioms Gofre.Props.c65_violated_never

/-- info: 'Gofre.Props.c65_violated' does not depend on any axioms -/
#guard_msgs in #print axioms Gofre.Props.c65_violated

/-- info: 'Gofre.Props.c66_unobservable' depends on axioms: [propext, Classical.choice, Quot.sound] -/
#guard_msgs in #print axioms Gofre.Props.c66_unobservable

/-- info: 'Gofre.Props.c66_exclusive' depends on axioms: [propext, Classical.choice, Quot.sound] -/
#guard_msgs in #print axioms Gofre.Props.c66_exclusive

/-- info: 'Gofre.Props.c66_clean' depends on axioms: [propext, Classical.choice, Quot.sound] -/
#guard_msgs in #print axioms Gofre.Props.c66_clean

/-- info: 'Gofre.Props.c67_state_alphabet' depends on axioms: [propext, Quot.sound] -/
#guard_msgs in #print axioms Gofre.Props.c67_state_alphabet

/-- info: 'Gofre.Props.c67_all_states' depends on axioms: [propext, Quot.sound] -/
#guard_msgs in #print axioms Gofre.Props.c67_all_states

/-- info: 'Gofre.Props.c68_violated' depends on axioms: [propext, Quot.sound] -/
#guard_msgs in #print axioms Gofre.Props.c68_violated

/-- info: 'Gofre.Props.c68_parsed_form_partial' depends on axioms: [propext, Quot.sound] -/
#guard_msgs in #print axioms Gofre.Props.c68_parsed_form_partial

/-- info: 'Gofre.Props.c68_violated_never' depends on axioms: [propext, Quot.sound] -/
#guard_msgs in #print axioms Gofre.Props.c68_violated_never

/-- info: 'Gofre.Props.c69_violated' does not depend on any axioms -/
#guard_msgs in #print axioms Gofre.Props.c69_violated

/-- info: 'Gofre.Props.c69_no_spare_capacity_partial' depends on axioms: [propext, Quot.sound] -/
#guard_msgs in #print axioms Gofre.Props.c69_no_spare_capacity_partial

/-- info: 'Gofre.Props.c69_exact' depends on axioms: [propext, Quot.sound] -/
#guard_msgs in #print axioms Gofre.Props.c69_exact

/-- info: 'Gofre.Props.c70_violated' depends on axioms: [propext] -/
#guard_msgs in #print axioms Gofre.Props.c70_violated

/-- info: 'Gofre.Props.c70_violated_never' depends on axioms: [propext, Quot.sound] -/
#guard_msgs in #print axioms Gofre.Props.c70_violated_never

/-- info: 'Gofre.Props.c70_default_port_partial' depends on axioms: [propext, Classical.choice, Quot.sound] -/
#guard_msgs in #print axioms Gofre.Props.c70_default_port_partial

/-- info: 'Gofre.Props.c70_no_origin' depends on axioms: [propext] -/
#guard_msgs in #print axioms Gofre.Props.c70_no_origin

/-- info: 'Gofre.Props.c71_violated' depends on axioms: [propext] -/
#guard_msgs in #print axioms Gofre.Props.c71_violated

/-- info: 'Gofre.Props.c71_sent' depends on axioms: [propext, Classical.choice, Quot.sound] -/
#guard_msgs in #print axioms Gofre.Props.c71_sent

/-- info: 'Gofre.Props.c71_explicit_value_partial' depends on axioms: [propext, Classical.choice, Quot.sound] -/
#guard_msgs in #print axioms Gofre.Props.c71_explicit_value_partial

/-- info: 'Gofre.Props.c71_exact' depends on axioms: [propext, Classical.choice, Quot.sound] -/
#guard_msgs in #print axioms Gofre.Props.c71_exact

/-- info: 'Gofre.Props.c72_violated_any' depends on axioms: [propext, Classical.choice, Quot.sound] -/
#guard_msgs in #print axioms Gofre.Props.c72_violated_any

/-- info: 'Gofre.Props.c72_exact' depends on axioms: [propext, Classical.choice, Quot.sound] -/
#guard_msgs in #print axioms Gofre.Props.c72_exact

/-- info: 'Gofre.Props.c72_violated' depends on axioms: [propext] -/
#guard_msgs in #print axioms Gofre.Props.c72_violated

/-- info: 'Gofre.Props.c72_one_partial' depends on axioms: [propext, Classical.choice, Quot.sound] -/
#guard_msgs in #print axioms Gofre.Props.c72_one_partial

/-- info: 'Gofre.Props.c73_exact' depends on axioms: [propext, Classical.choice, Quot.sound] -/
#guard_msgs in #print axioms Gofre.Props.c73_exact

/-- info: 'Gofre.Props.c73_violated' depends on axioms: [propext] -/
#guard_msgs in #print axioms Gofre.Props.c73_violated

/-- info: 'Gofre.Props.c73_returns_partial' depends on axioms: [propext, Classical.choice, Quot.sound] -/
#guard_msgs in #print axioms Gofre.Props.c73_returns_partial

/-- info: 'Gofre.Props.c74_decodes_partial' depends on axioms: [propext, Classical.choice, Quot.sound] -/
#guard_msgs in #print axioms Gofre.Props.c74_decodes_partial

/-- info: 'Gofre.Props.c74_violated' depends on axioms: [propext] -/
#guard_msgs in #print axioms Gofre.Props.c74_violated

/-- info: 'Gofre.Props.c74_violated_custom' depends on axioms: [propext] -/
#guard_msgs in #print axioms Gofre.Props.c74_violated_custom

/-- info: 'Gofre.Props.c74_nested_partial' depends on axioms: [propext, Classical.choice, Quot.sound] -/
#guard_msgs in #print axioms Gofre.Props.c74_nested_partial

/-- info: 'Gofre.Props.c74_violated_never' depends on axioms: [propext, Classical.choice, Quot.sound] -/
#guard_msgs in #print axioms Gofre.Props.c74_violated_never

/-- info: 'Gofre.Props.c75_violated' depends on axioms: [propext] -/
#guard_msgs in #print axioms Gofre.Props.c75_violated

/-- info: 'Gofre.Props.c75_uncompressed_partial' depends on axioms: [propext, Classical.choice, Quot.sound] -/
#guard_msgs in #print axioms Gofre.Props.c75_uncompressed_partial

/-- info: 'Gofre.Props.c75_absent_partial' depends on axioms: [propext, Classical.choice, Quot.sound] -/
#guard_msgs in #print axioms Gofre.Props.c75_absent_partial

/-- info: 'Gofre.Props.c75_exact' depends on axioms: [propext, Classical.choice, Quot.sound] -/
#guard_msgs in #print axioms Gofre.Props.c75_exact

/-- info: 'Gofre.Props.c76_no_error_partial' depends on axioms: [propext, Classical.choice, Quot.sound] -/
#guard_msgs in #print axioms Gofre.Props.c76_no_error_partial

/-- info: 'Gofre.Props.c76_violated_status' depends on axioms: [propext] -/
#guard_msgs in #print axioms Gofre.Props.c76_violated_status

/-- info: 'Gofre.Props.c76_violated' depends on axioms: [propext] -/
#guard_msgs in #print axioms Gofre.Props.c76_violated

/-- info: 'Gofre.Props.c76_exact' depends on axioms: [propext, Classical.choice, Quot.sound] -/
#guard_msgs in #print axioms Gofre.Props.c76_exact

/-- info: 'Gofre.Props.c77_violated_never' depends on axioms: [propext] -/
#guard_msgs in #print axioms Gofre.Props.c77_violated_never

/-- info: 'Gofre.Props.c77_violated' depends on axioms: [propext] -/
#guard_msgs in #print axioms Gofre.Props.c77_violated

/-- info: 'Gofre.Props.c78_readme_partial' depends on axioms: [propext, Classical.choice, Quot.sound] -/
#guard_msgs in #print axioms Gofre.Props.c78_readme_partial

/-- info: 'Gofre.Props.c78_violated_never' depends on axioms: [propext, Classical.choice, Quot.sound] -/
#guard_msgs in #print axioms Gofre.Props.c78_violated_never

/-- info: 'Gofre.Props.c78_exact' depends on axioms: [propext, Classical.choice, Quot.sound] -/
#guard_msgs in #print axioms Gofre.Props.c78_exact

/-- info: 'Gofre.Props.c78_violated' depends on axioms: [propext] -/
#guard_msgs in #print axioms Gofre.Props.c78_violated

/-- info: 'Gofre.Props.c79_between' depends on axioms: [propext, Classical.choice, Quot.sound] -/
#guard_msgs in #print axioms Gofre.Props.c79_between

/-- info: 'Gofre.Props.c79_below_partial' depends on axioms: [propext, Classical.choice, Quot.sound] -/
#guard_msgs in #print axioms Gofre.Props.c79_below_partial

/-- info: 'Gofre.Props.c79_violated_never' depends on axioms: [propext, Classical.choice, Quot.sound] -/
#guard_msgs in #print axioms Gofre.Props.c79_violated_never

/-- info: 'Gofre.Props.c79_violated' depends on axioms: [propext] -/
#guard_msgs in #print axioms Gofre.Props.c79_violated

/-- info: 'Gofre.Props.c80_completes' depends on axioms: [propext, Classical.choice, Quot.sound] -/
#guard_msgs in #print axioms Gofre.Props.c80_completes

/-- info: 'Gofre.Props.c80_redirect_served_partial' depends on axioms: [propext, Classical.choice, Quot.sound] -/
#guard_msgs in #print axioms Gofre.Props.c80_redirect_served_partial

/-- info: 'Gofre.Props.c80_default_partial' depends on axioms: [propext, Classical.choice, Quot.sound] -/
#guard_msgs in #print axioms Gofre.Props.c80_default_partial

/-- info: 'Gofre.Props.c80_violated' depends on axioms: [propext] -/
#guard_msgs in #print axioms Gofre.Props.c80_violated

/-- info: 'Gofre.Props.c80_registered' depends on axioms: [propext] -/
#guard_msgs in #print axioms Gofre.Props.c80_registered

/-- info: 'Gofre.Props.c80_initiate' depends on axioms: [propext, Classical.choice, Quot.sound] -/
#guard_msgs in #print axioms Gofre.Props.c80_initiate

/-- info: 'Gofre.Props.c80_lasts' depends on axioms: [propext, Classical.choice, Quot.sound] -/
#guard_msgs in #print axioms Gofre.Props.c80_lasts

/-- info: 'Gofre.Props.c80_installed' depends on axioms: [propext, Quot.sound] -/
#guard_msgs in #print axioms Gofre.Props.c80_installed

/-- info: 'Gofre.Props.c80_login_partial' depends on axioms: [propext, Classical.choice, Quot.sound] -/
#guard_msgs in #print axioms Gofre.Props.c80_login_partial

/-- info: 'Gofre.Props.c80_behind_partial' depends on axioms: [propext, Classical.choice, Quot.sound] -/
#guard_msgs in #print axioms Gofre.Props.c80_behind_partial

/-- info: 'Gofre.Props.c81_exact' depends on axioms: [propext, Quot.sound] -/
#guard_msgs in #print axioms Gofre.Props.c81_exact

/-- info: 'Gofre.Props.c81_violated_never' depends on axioms: [propext, Classical.choice, Quot.sound] -/
#guard_msgs in #print axioms Gofre.Props.c81_violated_never

/-- info: 'Gofre.Props.c81_guarded_partial' depends on axioms: [propext, Quot.sound] -/
#guard_msgs in #print axioms Gofre.Props.c81_guarded_partial

/-- info: 'Gofre.Props.c81_violated' depends on axioms: [propext, Quot.sound] -/
#guard_msgs in #print axioms Gofre.Props.c81_violated

/-- info: 'Gofre.Props.c81_violated_assets' depends on axioms: [propext] -/
#guard_msgs in #print axioms Gofre.Props.c81_violated_assets

/-- info: 'Gofre.Props.c82_inside' depends on axioms: [propext] -/
#guard_msgs in #print axioms Gofre.Props.c82_inside

/-- info: 'Gofre.Props.c82_file' depends on axioms: [propext, Quot.sound] -/
#guard_msgs in #print axioms Gofre.Props.c82_file

/-- info: 'Gofre.Props.c82_route_partial' depends on axioms: [propext, Classical.choice, Quot.sound] -/
#guard_msgs in #print axioms Gofre.Props.c82_route_partial

/-- info: 'Gofre.Props.c82_violated_start' depends on axioms: [propext] -/
#guard_msgs in #print axioms Gofre.Props.c82_violated_start

/-- info: 'Gofre.Props.c82_violated' depends on axioms: [propext] -/
#guard_msgs in #print axioms Gofre.Props.c82_violated

/-- info: 'Gofre.Props.c82_missed' depends on axioms: [propext, Quot.sound] -/
#guard_msgs in #print axioms Gofre.Props.c82_missed

/-- info: 'Gofre.Props.c82_violated_escaped' depends on axioms: [propext] -/
#guard_msgs in #print axioms Gofre.Props.c82_violated_escaped

/-- info: 'Gofre.Props.c82_registered' depends on axioms: [propext, Quot.sound] -/
#guard_msgs in #print axioms Gofre.Props.c82_registered

/-- info: 'Gofre.Props.c83_default_partial' depends on axioms: [propext, Classical.choice, Quot.sound] -/
#guard_msgs in #print axioms Gofre.Props.c83_default_partial

/-- info: 'Gofre.Props.c83_exact' depends on axioms: [propext, Classical.choice, Quot.sound] -/
#guard_msgs in #print axioms Gofre.Props.c83_exact

/-- info: 'Gofre.Props.c83_violated' depends on axioms: [propext, Quot.sound] -/
#guard_msgs in #print axioms Gofre.Props.c83_violated

/-- info: 'Gofre.Props.c83_violated_request' depends on axioms: [propext] -/
#guard_msgs in #print axioms Gofre.Props.c83_violated_request

/-- info: 'Gofre.Props.c84_results_partial' depends on axioms: [propext, Classical.choice, Quot.sound] -/
#guard_msgs in #print axioms Gofre.Props.c84_results_partial

/-- info: 'Gofre.Props.c84_one_answer_partial' depends on axioms: [propext, Classical.choice, Quot.sound] -/
#guard_msgs in #print axioms Gofre.Props.c84_one_answer_partial

/-- info: 'Gofre.Props.c84_violated_panic' depends on axioms: [propext] -/
#guard_msgs in #print axioms Gofre.Props.c84_violated_panic

/-- info: 'Gofre.Props.c84_served_partial' depends on axioms: [propext, Classical.choice, Quot.sound] -/
#guard_msgs in #print axioms Gofre.Props.c84_served_partial

/-- info: 'Gofre.Props.c84_violated' depends on axioms: [propext, Quot.sound] -/
#guard_msgs in #print axioms Gofre.Props.c84_violated

/-- info: 'Gofre.Props.c84_exact' depends on axioms: [propext, Classical.choice, Quot.sound] -/
#guard_msgs in #print axioms Gofre.Props.c84_exact

/-- info: 'Gofre.Props.c85_transparent' depends on axioms: [propext, Quot.sound] -/
#guard_msgs in #print axioms Gofre.Props.c85_transparent

/-- info: 'Gofre.Props.c85_document_partial' depends on axioms: [propext, Quot.sound] -/
#guard_msgs in #print axioms Gofre.Props.c85_document_partial

/-- info: 'Gofre.Props.c85_exact' depends on axioms: [propext, Quot.sound] -/
#guard_msgs in #print axioms Gofre.Props.c85_exact

/-- info: 'Gofre.Props.c85_violated' does not depend on any axioms -/
#guard_msgs in #print axioms Gofre.Props.c85_violated

/-- info: 'Gofre.Props.c85_violated_form' depends on axioms: [propext, Quot.sound] -/
#guard_msgs in #print axioms Gofre.Props.c85_violated_form

/-- info: 'Gofre.Props.c85_violated_error' depends on axioms: [propext] -/
#guard_msgs in #print axioms Gofre.Props.c85_violated_error

/-- info: 'Gofre.Props.c86_sent' depends on axioms: [propext, Classical.choice, Quot.sound] -/
#guard_msgs in #print axioms Gofre.Props.c86_sent

/-- info: 'Gofre.Props.c86_redirect' depends on axioms: [propext, Quot.sound] -/
#guard_msgs in #print axioms Gofre.Props.c86_redirect

/-- info: 'Gofre.Props.c86_events' depends on axioms: [propext, Classical.choice, Quot.sound] -/
#guard_msgs in #print axioms Gofre.Props.c86_events

/-- info: 'Gofre.Props.c86_adapted' depends on axioms: [propext] -/
#guard_msgs in #print axioms Gofre.Props.c86_adapted

/-- info: 'Gofre.Props.c87_one_provider_partial' depends on axioms: [propext, Classical.choice, Quot.sound] -/
#guard_msgs in #print axioms Gofre.Props.c87_one_provider_partial

/-- info: 'Gofre.Props.c87_violated_never' depends on axioms: [propext, Classical.choice, Quot.sound] -/
#guard_msgs in #print axioms Gofre.Props.c87_violated_never

/-- info: 'Gofre.Props.c87_violated' depends on axioms: [propext] -/
#guard_msgs in #print axioms Gofre.Props.c87_violated

/-- info: 'Gofre.Props.c88_violated_never' depends on axioms: [propext, Classical.choice, Quot.sound] -/
#guard_msgs in #print axioms Gofre.Props.c88_violated_never

/-- info: 'Gofre.Props.c88_violated' depends on axioms: [propext] -/
#guard_msgs in #print axioms Gofre.Props.c88_violated

/-- info: 'Gofre.Props.c88_issued_partial' depends on axioms: [propext, Classical.choice, Quot.sound] -/
#guard_msgs in #print axioms Gofre.Props.c88_issued_partial

/-- info: 'Gofre.Props.c89_json_error' depends on axioms: [propext, Classical.choice, Quot.sound] -/
#guard_msgs in #print axioms Gofre.Props.c89_json_error

/-- info: 'Gofre.Props.c89_routed' depends on axioms: [propext, Quot.sound] -/
#guard_msgs in #print axioms Gofre.Props.c89_routed

/-- info: 'Gofre.Props.c90_outermost_partial' depends on axioms: [propext] -/
#guard_msgs in #print axioms Gofre.Props.c90_outermost_partial

/-- info: 'Gofre.Props.c90_violated_never' depends on axioms: [propext, Classical.choice, Quot.sound] -/
#guard_msgs in #print axioms Gofre.Props.c90_violated_never

/-- info: 'Gofre.Props.c90_violated' depends on axioms: [propext] -/
#guard_msgs in #print axioms Gofre.Props.c90_violated

/-- info: 'Gofre.Props.c91_passes' depends on axioms: [propext, Classical.choice, Quot.sound] -/
#guard_msgs in #print axioms Gofre.Props.c91_passes

/-- info: 'Gofre.Props.c91_decodes_partial' depends on axioms: [propext, Classical.choice, Quot.sound] -/
#guard_msgs in #print axioms Gofre.Props.c91_decodes_partial

/-- info: 'Gofre.Props.c91_violated' depends on axioms: [propext] -/
#guard_msgs in #print axioms Gofre.Props.c91_violated

/-- info: 'Gofre.Props.c92_text' depends on axioms: [propext, Classical.choice, Quot.sound] -/
#guard_msgs in #print axioms Gofre.Props.c92_text

/-- info: 'Gofre.Props.c92_github' depends on axioms: [propext, Classical.choice, Quot.sound] -/
#guard_msgs in #print axioms Gofre.Props.c92_github

/-- info: 'Gofre.Props.c92_google' depends on axioms: [propext, Classical.choice, Quot.sound] -/
#guard_msgs in #print axioms Gofre.Props.c92_google

/-- info: 'Gofre.Props.c92_printable' depends on axioms: [propext, Quot.sound] -/
#guard_msgs in #print axioms Gofre.Props.c92_printable

/-- info: 'Gofre.Props.c92_initiated' depends on axioms: [propext, Classical.choice, Quot.sound] -/
#guard_msgs in #print axioms Gofre.Props.c92_initiated

/-- info: 'Gofre.Props.c93_violated_never' depends on axioms: [propext, Quot.sound] -/
#guard_msgs in #print axioms Gofre.Props.c93_violated_never

/-- info: 'Gofre.Props.c93_github_partial' depends on axioms: [propext, Quot.sound] -/
#guard_msgs in #print axioms Gofre.Props.c93_github_partial

/-- info: 'Gofre.Props.c93_google_partial' depends on axioms: [propext, Classical.choice, Quot.sound] -/
#guard_msgs in #print axioms Gofre.Props.c93_google_partial

/-- info: 'Gofre.Props.c94_sent' depends on axioms: [propext, Classical.choice, Quot.sound] -/
#guard_msgs in #print axioms Gofre.Props.c94_sent

/-- info: 'Gofre.Props.c94_endpoints' depends on axioms: [propext, Quot.sound] -/
#guard_msgs in #print axioms Gofre.Props.c94_endpoints

/-- info: 'Gofre.Props.c95_alone_partial' depends on axioms: [propext, Quot.sound] -/
#guard_msgs in #print axioms Gofre.Props.c95_alone_partial

/-- info: 'Gofre.Props.c95_alone_oauth_partial' depends on axioms: [propext] -/
#guard_msgs in #print axioms Gofre.Props.c95_alone_oauth_partial

/-- info: 'Gofre.Props.c95_violated_never' depends on axioms: [propext] -/
#guard_msgs in #print axioms Gofre.Props.c95_violated_never

/-- info: 'Gofre.Props.c95_violated_reader' depends on axioms: [propext] -/
#guard_msgs in #print axioms Gofre.Props.c95_violated_reader

/-- info: 'Gofre.Props.c95_violated_oauth' depends on axioms: [propext] -/
#guard_msgs in #print axioms Gofre.Props.c95_violated_oauth

/-- info: 'Gofre.Props.c95_serial_partial' depends on axioms: [propext, Quot.sound] -/
#guard_msgs in #print axioms Gofre.Props.c95_serial_partial

/-- info: 'Gofre.Props.c95_readers_partial' depends on axioms: [propext, Quot.sound] -/
#guard_msgs in #print axioms Gofre.Props.c95_readers_partial

/-- info: 'Gofre.Props.c96_violated_never' depends on axioms: [propext, Classical.choice, Quot.sound] -/
#guard_msgs in #print axioms Gofre.Props.c96_violated_never

/-- info: 'Gofre.Props.c96_violated_csrf' depends on axioms: [propext, Quot.sound] -/
#guard_msgs in #print axioms Gofre.Props.c96_violated_csrf

/-- info: 'Gofre.Props.c97_violated_never' depends on axioms: [propext, Quot.sound] -/
#guard_msgs in #print axioms Gofre.Props.c97_violated_never

/-- info: 'Gofre.Props.c97_violated' depends on axioms: [propext, Classical.choice, Quot.sound] -/
#guard_msgs in #print axioms Gofre.Props.c97_violated

/-- info: 'Gofre.Props.c98_complete_partial' depends on axioms: [propext, Quot.sound] -/
#guard_msgs in #print axioms Gofre.Props.c98_complete_partial

/-- info: 'Gofre.Props.c98_reported_partial' depends on axioms: [propext, Quot.sound] -/
#guard_msgs in #print axioms Gofre.Props.c98_reported_partial

/-- info: 'Gofre.Props.c98_violated_never' depends on axioms: [propext, Quot.sound] -/
#guard_msgs in #print axioms Gofre.Props.c98_violated_never

/-- info: 'Gofre.Props.c98_violated' depends on axioms: [propext] -/
#guard_msgs in #print axioms Gofre.Props.c98_violated

/-- info: 'Gofre.Props.c98_violated_adaptor' depends on axioms: [propext] -/
#guard_msgs in #print axioms Gofre.Props.c98_violated_adaptor

/-- info: 'Gofre.Props.c98_violated_compressed' depends on axioms: [propext, Classical.choice, Quot.sound] -/
#guard_msgs in #print axioms Gofre.Props.c98_violated_compressed

/-- info: 'Gofre.Props.c99_defaults' depends on axioms: [propext, Quot.sound] -/
#guard_msgs in #print axioms Gofre.Props.c99_defaults

/-- info: 'Gofre.Props.c99_error' depends on axioms: [propext, Quot.sound] -/
#guard_msgs in #print axioms Gofre.Props.c99_error

/-- info: 'Gofre.Props.c99_again' depends on axioms: [propext, Quot.sound] -/
#guard_msgs in #print axioms Gofre.Props.c99_again

/-- info: 'Gofre.Props.c100_violated_never' depends on axioms: [propext, Quot.sound] -/
#guard_msgs in #print axioms Gofre.Props.c100_violated_never

/-- info: 'Gofre.Props.c100_violated' does not depend on any axioms -/
#guard_msgs in #print axioms Gofre.Props.c100_violated

/-- info: 'Gofre.Props.c100_copy_partial' depends on axioms: [propext] -/
#guard_msgs in #print axioms Gofre.Props.c100_copy_partial

/-- info: 'Gofre.Props.c101_never_partial' depends on axioms: [propext, Classical.choice, Quot.sound] -/
#guard_msgs in #print axioms Gofre.Props.c101_never_partial

/-- info: 'Gofre.Props.c101_violated' depends on axioms: [propext] -/
#guard_msgs in #print axioms Gofre.Props.c101_violated

/-- info: 'Gofre.Props.c101_constrained_partial' depends on axioms: [propext, Classical.choice, Quot.sound] -/
#guard_msgs in #print axioms Gofre.Props.c101_constrained_partial

/-- info: 'Gofre.Props.c101_served_partial' depends on axioms: [propext, Classical.choice, Quot.sound] -/
#guard_msgs in #print axioms Gofre.Props.c101_served_partial

/-- info: 'Gofre.Props.c101_violated_long' depends on axioms: [propext] -/
#guard_msgs in #print axioms Gofre.Props.c101_violated_long

/-- info: 'Gofre.Props.c101_violated_stars' depends on axioms: [propext] -/
#guard_msgs in #print axioms Gofre.Props.c101_violated_stars

/-- info: 'Gofre.Props.c101_violated_brace' depends on axioms: [propext] -/
#guard_msgs in #print axioms Gofre.Props.c101_violated_brace

/-- info: 'Gofre.Props.c101_text_partial' depends on axioms: [propext, Classical.choice, Quot.sound] -/
#guard_msgs in #print axioms Gofre.Props.c101_text_partial

/-- info: 'Gofre.Props.c102_redirect_partial' depends on axioms: [propext, Quot.sound] -/
#guard_msgs in #print axioms Gofre.Props.c102_redirect_partial

/-- info: 'Gofre.Props.c102_violated' depends on axioms: [propext, Quot.sound] -/
#guard_msgs in #print axioms Gofre.Props.c102_violated

/-- info: 'Gofre.Props.c102_told_partial' depends on axioms: [propext, Quot.sound] -/
#guard_msgs in #print axioms Gofre.Props.c102_told_partial

/-- info: 'Gofre.Props.c102_violated_never' depends on axioms: [propext, Classical.choice, Quot.sound] -/
#guard_msgs in #print axioms Gofre.Props.c102_violated_never

/-- info: 'Gofre.Props.c102_violated_never_hijack' depends on axioms: [propext] -/
#guard_msgs in #print axioms Gofre.Props.c102_violated_never_hijack

/-- info: 'Gofre.Props.c102_violated_sse' depends on axioms: [propext, Quot.sound] -/
#guard_msgs in #print axioms Gofre.Props.c102_violated_sse

/-- info: 'Gofre.Props.c103_exact' depends on axioms: [propext, Classical.choice, Quot.sound] -/
#guard_msgs in #print axioms Gofre.Props.c103_exact

/-- info: 'Gofre.Props.c103_documented_partial' depends on axioms: [propext, Classical.choice, Quot.sound] -/
#guard_msgs in #print axioms Gofre.Props.c103_documented_partial

/-- info: 'Gofre.Props.c103_violated' depends on axioms: [propext, Quot.sound] -/
#guard_msgs in #print axioms Gofre.Props.c103_violated

/-- info: 'Gofre.Props.c103_violated_never' depends on axioms: [propext, Classical.choice, Quot.sound] -/
#guard_msgs in #print axioms Gofre.Props.c103_violated_never

/-- info: 'Gofre.Props.c104_violated_never' depends on axioms: [propext, Classical.choice, Quot.sound] -/
#guard_msgs in #print axioms Gofre.Props.c104_violated_never

/-- info: 'Gofre.Props.c104_violated' depends on axioms: [propext, Quot.sound] -/
#guard_msgs in #print axioms Gofre.Props.c104_violated

/-- info: 'Gofre.Props.c104_issued_partial' depends on axioms: [propext, Classical.choice, Quot.sound] -/
#guard_msgs in #print axioms Gofre.Props.c104_issued_partial

/-- info: 'Gofre.Props.c105_no_room' depends on axioms: [propext, Classical.choice, Quot.sound] -/
#guard_msgs in #print axioms Gofre.Props.c105_no_room

/-- info: 'Gofre.Props.c105_violated_never' depends on axioms: [propext, Quot.sound] -/
#guard_msgs in #print axioms Gofre.Props.c105_violated_never

/-- info: 'Gofre.Props.c105_violated_overflow' depends on axioms: [propext, Quot.sound] -/
#guard_msgs in #print axioms Gofre.Props.c105_violated_overflow

/-- info: 'Gofre.Props.c105_survives_partial' depends on axioms: [propext, Classical.choice, Quot.sound] -/
#guard_msgs in #print axioms Gofre.Props.c105_survives_partial

/-- info: 'Gofre.Props.c105_header' depends on axioms: [propext, Quot.sound] -/
#guard_msgs in #print axioms Gofre.Props.c105_header

/-- info: 'Gofre.Props.c105_exact' depends on axioms: [propext, Classical.choice, Quot.sound] -/
#guard_msgs in #print axioms Gofre.Props.c105_exact

/-- info: 'Gofre.Props.c106_alone_partial' depends on axioms: [propext, Quot.sound] -/
#guard_msgs in #print axioms Gofre.Props.c106_alone_partial

/-- info: 'Gofre.Props.c106_violated_never' depends on axioms: [propext, Quot.sound] -/
#guard_msgs in #print axioms Gofre.Props.c106_violated_never

/-- info: 'Gofre.Props.c106_violated' depends on axioms: [propext] -/
#guard_msgs in #print axioms Gofre.Props.c106_violated

/-- info: 'Gofre.Props.c106_violated_rewound' depends on axioms: [propext] -/
#guard_msgs in #print axioms Gofre.Props.c106_violated_rewound

/-- info: 'Gofre.Props.c107_violated_never' depends on axioms: [propext, Quot.sound] -/
#guard_msgs in #print axioms Gofre.Props.c107_violated_never

/-- info: 'Gofre.Props.c107_violated' depends on axioms: [propext] -/
#guard_msgs in #print axioms Gofre.Props.c107_violated

/-- info: 'Gofre.Props.c107_violated_lost' depends on axioms: [propext] -/
#guard_msgs in #print axioms Gofre.Props.c107_violated_lost

/-- info: 'Gofre.Props.c107_some_partial' depends on axioms: [propext, Quot.sound] -/
#guard_msgs in #print axioms Gofre.Props.c107_some_partial

/-- info: 'Gofre.Props.c108_continues_partial' depends on axioms: [propext, Classical.choice, Quot.sound] -/
#guard_msgs in #print axioms Gofre.Props.c108_continues_partial

/-- info: 'Gofre.Props.c108_next_partial' depends on axioms: [propext, Classical.choice, Quot.sound] -/
#guard_msgs in #print axioms Gofre.Props.c108_next_partial

/-- info: 'Gofre.Props.c108_exact' depends on axioms: [propext, Classical.choice, Quot.sound] -/
#guard_msgs in #print axioms Gofre.Props.c108_exact

/-- info: 'Gofre.Props.c108_violated' depends on axioms: [propext] -/
#guard_msgs in #print axioms Gofre.Props.c108_violated

/-- info: 'Gofre.Props.c108_violated_muted' depends on axioms: [propext, Classical.choice, Quot.sound] -/
#guard_msgs in #print axioms Gofre.Props.c108_violated_muted

/-- info: 'Gofre.Props.c109_violated_never' depends on axioms: [propext, Classical.choice, Quot.sound] -/
#guard_msgs in #print axioms Gofre.Props.c109_violated_never

/-- info: 'Gofre.Props.c110_granted' depends on axioms: [propext, Classical.choice, Quot.sound] -/
#guard_msgs in #print axioms Gofre.Props.c110_granted

/-- info: 'Gofre.Props.c110_completes_partial' depends on axioms: [propext, Classical.choice, Quot.sound] -/
#guard_msgs in #print axioms Gofre.Props.c110_completes_partial

/-- info: 'Gofre.Props.c110_violated' depends on axioms: [propext] -/
#guard_msgs in #print axioms Gofre.Props.c110_violated

/-- info: 'Gofre.Props.c110_violated_method' depends on axioms: [propext] -/
#guard_msgs in #print axioms Gofre.Props.c110_violated_method

/-- info: 'Gofre.Props.c110_violated_never' depends on axioms: [propext, Classical.choice, Quot.sound] -/
#guard_msgs in #print axioms Gofre.Props.c110_violated_never

/-- info: 'Gofre.Props.c111_exact' depends on axioms: [propext, Quot.sound] -/
#guard_msgs in #print axioms Gofre.Props.c111_exact

/-- info: 'Gofre.Props.c111_violated_never' depends on axioms: [propext, Classical.choice, Quot.sound] -/
#guard_msgs in #print axioms Gofre.Props.c111_violated_never

/-- info: 'Gofre.Props.c111_shown_partial' depends on axioms: [propext, Classical.choice, Quot.sound] -/
#guard_msgs in #print axioms Gofre.Props.c111_shown_partial

/-- info: 'Gofre.Props.c111_violated' depends on axioms: [propext] -/
#guard_msgs in #print axioms Gofre.Props.c111_violated

/-- info: 'Gofre.Props.c111_registered' depends on axioms: [propext, Quot.sound] -/
#guard_msgs in #print axioms Gofre.Props.c111_registered

/-- info: 'Gofre.Props.c112_routes_partial' depends on axioms: [propext, Classical.choice, Quot.sound] -/
#guard_msgs in #print axioms Gofre.Props.c112_routes_partial

/-- info: 'Gofre.Props.c112_variables_partial' depends on axioms: [propext, Classical.choice, Quot.sound] -/
#guard_msgs in #print axioms Gofre.Props.c112_variables_partial

/-- info: 'Gofre.Props.c112_overlong' depends on axioms: [propext, Classical.choice, Quot.sound] -/
#guard_msgs in #print axioms Gofre.Props.c112_overlong

/-- info: 'Gofre.Props.c112_methods' depends on axioms: [propext] -/
#guard_msgs in #print axioms Gofre.Props.c112_methods

/-- info: 'Gofre.Props.c112_violated' depends on axioms: [propext, Classical.choice, Quot.sound] -/
#guard_msgs in #print axioms Gofre.Props.c112_violated

/-- info: 'Gofre.Props.c112_exact' depends on axioms: [propext, Classical.choice, Quot.sound] -/
#guard_msgs in #print axioms Gofre.Props.c112_exact

/-- info: 'Gofre.Props.c113_exact' depends on axioms: [propext, Classical.choice, Quot.sound] -/
#guard_msgs in #print axioms Gofre.Props.c113_exact

/-- info: 'Gofre.Props.c113_request_partial' depends on axioms: [propext, Classical.choice, Quot.sound] -/
#guard_msgs in #print axioms Gofre.Props.c113_request_partial

/-- info: 'Gofre.Props.c113_violated' depends on axioms: [propext, Classical.choice, Quot.sound] -/
#guard_msgs in #print axioms Gofre.Props.c113_violated

/-- info: 'Gofre.Props.c114_failed' depends on axioms: [propext, Classical.choice, Quot.sound] -/
#guard_msgs in #print axioms Gofre.Props.c114_failed

/-- info: 'Gofre.Props.c114_written' depends on axioms: [propext, Quot.sound] -/
#guard_msgs in #print axioms Gofre.Props.c114_written

/-- info: 'Gofre.Props.c114_connected' depends on axioms: [propext, Quot.sound] -/
#guard_msgs in #print axioms Gofre.Props.c114_connected

/-- info: 'Gofre.Props.c114_violated' depends on axioms: [propext, Quot.sound] -/
#guard_msgs in #print axioms Gofre.Props.c114_violated

/-- info: 'Gofre.Props.c114_exact' depends on axioms: [propext, Quot.sound] -/
#guard_msgs in #print axioms Gofre.Props.c114_exact

/-- info: 'Gofre.Props.c114_ends_partial' depends on axioms: [propext, Classical.choice, Quot.sound] -/
#guard_msgs in #print axioms Gofre.Props.c114_ends_partial

/-- info: 'Gofre.Props.c115_violated_cors' depends on axioms: [propext] -/
#guard_msgs in #print axioms Gofre.Props.c115_violated_cors

/-- info: 'Gofre.Props.c115_security_exact' depends on axioms: [propext, Quot.sound] -/
#guard_msgs in #print axioms Gofre.Props.c115_security_exact

/-- info: 'Gofre.Props.c115_exact' depends on axioms: [propext, Classical.choice, Quot.sound] -/
#guard_msgs in #print axioms Gofre.Props.c115_exact

/-- info: 'Gofre.Props.c115_violated_never' depends on axioms: [propext, Classical.choice, Quot.sound] -/
#guard_msgs in #print axioms Gofre.Props.c115_violated_never

/-- info: 'Gofre.Props.c116_violated' depends on axioms: [propext, Quot.sound] -/
#guard_msgs in #print axioms Gofre.Props.c116_violated

/-- info: 'Gofre.Props.c116_pointer_first_partial' depends on axioms: [propext] -/
#guard_msgs in #print axioms Gofre.Props.c116_pointer_first_partial

/-- info: 'Gofre.Props.c116_alone_partial' depends on axioms: [propext, Quot.sound] -/
#guard_msgs in #print axioms Gofre.Props.c116_alone_partial

/-- info: 'Gofre.Props.c116_right_or_crash' depends on axioms: [propext] -/
#guard_msgs in #print axioms Gofre.Props.c116_right_or_crash

/-- info: 'Gofre.Props.c116_exact' depends on axioms: [propext, Quot.sound] -/
#guard_msgs in #print axioms Gofre.Props.c116_exact

/-- info: 'Gofre.Props.c116_settled' depends on axioms: [propext] -/
#guard_msgs in #print axioms Gofre.Props.c116_settled

/-- info: 'Gofre.Props.c117_text' depends on axioms: [propext, Quot.sound] -/
#guard_msgs in #print axioms Gofre.Props.c117_text

/-- info: 'Gofre.Props.c117_decoded' depends on axioms: [propext, Quot.sound] -/
#guard_msgs in #print axioms Gofre.Props.c117_decoded

/-- info: 'Gofre.Props.c117_values_partial' depends on axioms: [propext, Classical.choice, Quot.sound] -/
#guard_msgs in #print axioms Gofre.Props.c117_values_partial

/-- info: 'Gofre.Props.c117_violated_never' depends on axioms: [propext, Classical.choice, Quot.sound] -/
#guard_msgs in #print axioms Gofre.Props.c117_violated_never

/-- info: 'Gofre.Props.c117_violated' depends on axioms: [propext, Quot.sound] -/
#guard_msgs in #print axioms Gofre.Props.c117_violated

/-- info: 'Gofre.Props.c118_read' depends on axioms: [propext, Quot.sound] -/
#guard_msgs in #print axioms Gofre.Props.c118_read

/-- info: 'Gofre.Props.c118_middlewares' depends on axioms: [propext, Quot.sound] -/
#guard_msgs in #print axioms Gofre.Props.c118_middlewares

/-- info: 'Gofre.Props.c118_wired' depends on axioms: [propext, Quot.sound] -/
#guard_msgs in #print axioms Gofre.Props.c118_wired

/-- info: 'Gofre.Props.c118_user' depends on axioms: [propext, Quot.sound] -/
#guard_msgs in #print axioms Gofre.Props.c118_user

/-- info: 'Gofre.Props.c119_order' depends on axioms: [propext, Classical.choice, Quot.sound] -/
#guard_msgs in #print axioms Gofre.Props.c119_order

/-- info: 'Gofre.Props.c119_specific_partial' depends on axioms: [propext, Classical.choice, Quot.sound] -/
#guard_msgs in #print axioms Gofre.Props.c119_specific_partial

/-- info: 'Gofre.Props.c119_violated' depends on axioms: [propext] -/
#guard_msgs in #print axioms Gofre.Props.c119_violated

/-- info: 'Gofre.Props.c119_tail_partial' depends on axioms: [propext, Classical.choice, Quot.sound] -/
#guard_msgs in #print axioms Gofre.Props.c119_tail_partial

/-- info: 'Gofre.Props.c120_exact' depends on axioms: [propext, Classical.choice, Quot.sound] -/
#guard_msgs in #print axioms Gofre.Props.c120_exact

/-- info: 'Gofre.Props.c120_violated' depends on axioms: [propext] -/
#guard_msgs in #print axioms Gofre.Props.c120_violated

/-- info: 'Gofre.Props.c120_violated_never' depends on axioms: [propext, Classical.choice, Quot.sound] -/
#guard_msgs in #print axioms Gofre.Props.c120_violated_never

/-- info: 'Gofre.Props.c120_default_partial' depends on axioms: [propext, Classical.choice, Quot.sound] -/
#guard_msgs in #print axioms Gofre.Props.c120_default_partial

/-- info: 'Gofre.Props.c121_violated_never' depends on axioms: [propext, Classical.choice, Quot.sound] -/
#guard_msgs in #print axioms Gofre.Props.c121_violated_never

/-- info: 'Gofre.Props.c121_violated' depends on axioms: [propext] -/
#guard_msgs in #print axioms Gofre.Props.c121_violated

/-- info: 'Gofre.Props.c121_declared_partial' depends on axioms: [propext, Classical.choice, Quot.sound] -/
#guard_msgs in #print axioms Gofre.Props.c121_declared_partial

/-- info: 'Gofre.Props.c122_listed_partial' depends on axioms: [propext, Classical.choice, Quot.sound] -/
#guard_msgs in #print axioms Gofre.Props.c122_listed_partial

/-- info: 'Gofre.Props.c122_any_partial' depends on axioms: [propext, Quot.sound] -/
#guard_msgs in #print axioms Gofre.Props.c122_any_partial

/-- info: 'Gofre.Props.c122_violated' depends on axioms: [propext, Quot.sound] -/
#guard_msgs in #print axioms Gofre.Props.c122_violated

/-- info: 'Gofre.Props.c123_exact' depends on axioms: [propext, Quot.sound] -/
#guard_msgs in #print axioms Gofre.Props.c123_exact

/-- info: 'Gofre.Props.c123_kept_partial' depends on axioms: [propext, Quot.sound] -/
#guard_msgs in #print axioms Gofre.Props.c123_kept_partial

/-- info: 'Gofre.Props.c123_violated_never' depends on axioms: [propext, Quot.sound] -/
#guard_msgs in #print axioms Gofre.Props.c123_violated_never

/-- info: 'Gofre.Props.c123_violated' depends on axioms: [propext, Quot.sound] -/
#guard_msgs in #print axioms Gofre.Props.c123_violated

/-- info: 'Gofre.Props.c123_platforms' depends on axioms: [propext, Quot.sound] -/
#guard_msgs in #print axioms Gofre.Props.c123_platforms

/-- info: 'Gofre.Props.c124_violated_never' depends on axioms: [propext, Quot.sound] -/
#guard_msgs in #print axioms Gofre.Props.c124_violated_never

/-- info: 'Gofre.Props.c124_violated' depends on axioms: [propext, Quot.sound] -/
#guard_msgs in #print axioms Gofre.Props.c124_violated

/-- info: 'Gofre.Props.c125_violated_never' depends on axioms: [propext, Classical.choice, Quot.sound] -/
#guard_msgs in #print axioms Gofre.Props.c125_violated_never

/-- info: 'Gofre.Props.c125_mirrored_partial' depends on axioms: [propext, Classical.choice, Quot.sound] -/
#guard_msgs in #print axioms Gofre.Props.c125_mirrored_partial

/-- info: 'Gofre.Props.c126_runs_partial' depends on axioms: [propext, Classical.choice, Quot.sound] -/
#guard_msgs in #print axioms Gofre.Props.c126_runs_partial

/-- info: 'Gofre.Props.c126_own_partial' depends on axioms: [propext, Classical.choice, Quot.sound] -/
#guard_msgs in #print axioms Gofre.Props.c126_own_partial

/-- info: 'Gofre.Props.c126_served_partial' depends on axioms: [propext, Classical.choice, Quot.sound] -/
#guard_msgs in #print axioms Gofre.Props.c126_served_partial

/-- info: 'Gofre.Props.c126_exact_partial' depends on axioms: [propext, Classical.choice, Quot.sound] -/
#guard_msgs in #print axioms Gofre.Props.c126_exact_partial

/-- info: 'Gofre.Props.c126_verb_partial' depends on axioms: [propext, Classical.choice, Quot.sound] -/
#guard_msgs in #print axioms Gofre.Props.c126_verb_partial

/-- info: 'Gofre.Props.c126_violated' depends on axioms: [propext, Classical.choice, Quot.sound] -/
#guard_msgs in #print axioms Gofre.Props.c126_violated

/-- info: 'Gofre.Props.c126_overlong' depends on axioms: [propext, Classical.choice, Quot.sound] -/
#guard_msgs in #print axioms Gofre.Props.c126_overlong

/-- info: 'Gofre.Props.c126_violated_long' depends on axioms: [propext, Classical.choice, Quot.sound] -/
#guard_msgs in #print axioms Gofre.Props.c126_violated_long

/-- info: 'Gofre.Props.c126_simple_partial' depends on axioms: [propext, Classical.choice, Quot.sound] -/
#guard_msgs in #print axioms Gofre.Props.c126_simple_partial

/-- info: 'Gofre.Props.c127_exact' depends on axioms: [propext, Classical.choice, Quot.sound] -/
#guard_msgs in #print axioms Gofre.Props.c127_exact

/-- info: 'Gofre.Props.c127_guarded_partial' depends on axioms: [propext, Classical.choice, Quot.sound] -/
#guard_msgs in #print axioms Gofre.Props.c127_guarded_partial

/-- info: 'Gofre.Props.c127_violated' depends on axioms: [propext, Quot.sound] -/
#guard_msgs in #print axioms Gofre.Props.c127_violated

/-- info: 'Gofre.Props.c128_refused' depends on axioms: [propext, Classical.choice, Quot.sound] -/
#guard_msgs in #print axioms Gofre.Props.c128_refused

/-- info: 'Gofre.Props.c128_verbs' depends on axioms: [propext, Classical.choice, Quot.sound] -/
#guard_msgs in #print axioms Gofre.Props.c128_verbs

/-- info: 'Gofre.Props.c128_accepted' depends on axioms: [propext, Classical.choice, Quot.sound] -/
#guard_msgs in #print axioms Gofre.Props.c128_accepted

/-- info: 'Gofre.Props.c129_spent' depends on axioms: [propext, Classical.choice, Quot.sound] -/
#guard_msgs in #print axioms Gofre.Props.c129_spent

/-- info: 'Gofre.Props.c129_single_use' depends on axioms: [propext, Classical.choice, Quot.sound] -/
#guard_msgs in #print axioms Gofre.Props.c129_single_use

/-- info: 'Gofre.Props.c130_exact' depends on axioms: [propext, Quot.sound] -/
#guard_msgs in #print axioms Gofre.Props.c130_exact

/-- info: 'Gofre.Props.c130_google_partial' depends on axioms: [propext, Quot.sound] -/
#guard_msgs in #print axioms Gofre.Props.c130_google_partial

/-- info: 'Gofre.Props.c130_violated_never' depends on axioms: [propext, Quot.sound] -/
#guard_msgs in #print axioms Gofre.Props.c130_violated_never

/-- info: 'Gofre.Props.c130_violated' depends on axioms: [propext, Quot.sound] -/
#guard_msgs in #print axioms Gofre.Props.c130_violated

/-- info: 'Gofre.Props.c131_callback' depends on axioms: [propext, Quot.sound] -/
#guard_msgs in #print axioms Gofre.Props.c131_callback

/-- info: 'Gofre.Props.c131_no_state' depends on axioms: [propext, Quot.sound] -/
#guard_msgs in #print axioms Gofre.Props.c131_no_state

/-- info: 'Gofre.Props.c131_unissued' depends on axioms: [propext, Classical.choice, Quot.sound] -/
#guard_msgs in #print axioms Gofre.Props.c131_unissued

/-- info: 'Gofre.Props.c131_initiated_partial' depends on axioms: [propext, Classical.choice, Quot.sound] -/
#guard_msgs in #print axioms Gofre.Props.c131_initiated_partial

/-- info: 'Gofre.Props.c131_violated' depends on axioms: [propext, Classical.choice, Quot.sound] -/
#guard_msgs in #print axioms Gofre.Props.c131_violated

/-- info: 'Gofre.Props.c132_violated_never' depends on axioms: [propext, Quot.sound] -/
#guard_msgs in #print axioms Gofre.Props.c132_violated_never

/-- info: 'Gofre.Props.c132_violated' depends on axioms: [propext, Quot.sound] -/
#guard_msgs in #print axioms Gofre.Props.c132_violated

/-- info: 'Gofre.Props.c133_initiate' depends on axioms: [propext, Classical.choice, Quot.sound] -/
#guard_msgs in #print axioms Gofre.Props.c133_initiate

/-- info: 'Gofre.Props.c133_callback' depends on axioms: [propext, Quot.sound] -/
#guard_msgs in #print axioms Gofre.Props.c133_callback

/-- info: 'Gofre.Props.c133_installed' depends on axioms: [propext, Quot.sound] -/
#guard_msgs in #print axioms Gofre.Props.c133_installed

/-- info: 'Gofre.Props.c134_overlong' depends on axioms: [propext, Classical.choice, Quot.sound] -/
#guard_msgs in #print axioms Gofre.Props.c134_overlong

/-- info: 'Gofre.Props.c134_violated_long' depends on axioms: [propext, Classical.choice, Quot.sound] -/
#guard_msgs in #print axioms Gofre.Props.c134_violated_long

/-- info: 'Gofre.Props.c134_prefix_partial' depends on axioms: [propext, Classical.choice, Quot.sound] -/
#guard_msgs in #print axioms Gofre.Props.c134_prefix_partial

/-- info: 'Gofre.Props.c134_clone_partial' depends on axioms: [propext, Classical.choice, Quot.sound] -/
#guard_msgs in #print axioms Gofre.Props.c134_clone_partial

/-- info: 'Gofre.Props.c135_exact' depends on axioms: [propext, Classical.choice, Quot.sound] -/
#guard_msgs in #print axioms Gofre.Props.c135_exact

/-- info: 'Gofre.Props.c135_positive_partial' depends on axioms: [propext, Classical.choice, Quot.sound] -/
#guard_msgs in #print axioms Gofre.Props.c135_positive_partial

/-- info: 'Gofre.Props.c135_violated' depends on axioms: [propext] -/
#guard_msgs in #print axioms Gofre.Props.c135_violated

/-- info: 'Gofre.Props.c135_violated_never' depends on axioms: [propext, Classical.choice, Quot.sound] -/
#guard_msgs in #print axioms Gofre.Props.c135_violated_never

/-- info: 'Gofre.Props.c136_exact' depends on axioms: [propext, Classical.choice, Quot.sound] -/
#guard_msgs in #print axioms Gofre.Props.c136_exact

/-- info: 'Gofre.Props.c136_own' depends on axioms: [propext, Classical.choice, Quot.sound] -/
#guard_msgs in #print axioms Gofre.Props.c136_own

/-- info: 'Gofre.Props.c137_cors_partial' depends on axioms: [propext, Classical.choice, Quot.sound] -/
#guard_msgs in #print axioms Gofre.Props.c137_cors_partial

/-- info: 'Gofre.Props.c137_violated_never' depends on axioms: [propext, Quot.sound] -/
#guard_msgs in #print axioms Gofre.Props.c137_violated_never

/-- info: 'Gofre.Props.c137_security_partial' depends on axioms: [propext, Classical.choice, Quot.sound] -/
#guard_msgs in #print axioms Gofre.Props.c137_security_partial

/-- info: 'Gofre.Props.c138_iterations' depends on axioms: [propext, Classical.choice, Quot.sound] -/
#guard_msgs in #print axioms Gofre.Props.c138_iterations

/-- info: 'Gofre.Props.c138_plain' depends on axioms: [propext, Classical.choice, Quot.sound] -/
#guard_msgs in #print axioms Gofre.Props.c138_plain

/-- info: 'Gofre.Props.c138_calls' depends on axioms: [propext, Classical.choice, Quot.sound] -/
#guard_msgs in #print axioms Gofre.Props.c138_calls

/-- info: 'Gofre.Props.c139_only_partial' depends on axioms: [propext, Classical.choice, Quot.sound] -/
#guard_msgs in #print axioms Gofre.Props.c139_only_partial

/-- info: 'Gofre.Props.c139_exactly_partial' depends on axioms: [propext, Classical.choice, Quot.sound] -/
#guard_msgs in #print axioms Gofre.Props.c139_exactly_partial

/-- info: 'Gofre.Props.c139_open_partial' depends on axioms: [propext, Classical.choice, Quot.sound] -/
#guard_msgs in #print axioms Gofre.Props.c139_open_partial

/-- info: 'Gofre.Props.c139_violated_never' depends on axioms: [propext, Classical.choice, Quot.sound] -/
#guard_msgs in #print axioms Gofre.Props.c139_violated_never

/-- info: 'Gofre.Props.c139_violated' depends on axioms: [propext, Classical.choice, Quot.sound] -/
#guard_msgs in #print axioms Gofre.Props.c139_violated

/-- info: 'Gofre.Props.c139_violated_other_letter' depends on axioms: [propext, Classical.choice, Quot.sound] -/
#guard_msgs in #print axioms Gofre.Props.c139_violated_other_letter

/-- info: 'Gofre.Props.c139_violated_case' depends on axioms: [propext, Classical.choice, Quot.sound] -/
#guard_msgs in #print axioms Gofre.Props.c139_violated_case

/-- info: 'Gofre.Props.c140_exact' depends on axioms: [propext, Classical.choice, Quot.sound] -/
#guard_msgs in #print axioms Gofre.Props.c140_exact

/-- info: 'Gofre.Props.c140_read_partial' depends on axioms: [propext, Classical.choice, Quot.sound] -/
#guard_msgs in #print axioms Gofre.Props.c140_read_partial

/-- info: 'Gofre.Props.c140_violated' depends on axioms: [propext, Classical.choice, Quot.sound] -/
#guard_msgs in #print axioms Gofre.Props.c140_violated

/-- info: 'Gofre.Props.c141_violated_never' depends on axioms: [propext, Classical.choice, Quot.sound] -/
#guard_msgs in #print axioms Gofre.Props.c141_violated_never

/-- info: 'Gofre.Props.c141_violated_never_nonce' depends on axioms: [propext, Classical.choice, Quot.sound] -/
#guard_msgs in #print axioms Gofre.Props.c141_violated_never_nonce

/-- info: 'Gofre.Props.c141_one_partial' depends on axioms: [propext, Classical.choice, Quot.sound] -/
#guard_msgs in #print axioms Gofre.Props.c141_one_partial

/-- info: 'Gofre.Props.c141_apart_partial' depends on axioms: [propext, Classical.choice, Quot.sound] -/
#guard_msgs in #print axioms Gofre.Props.c141_apart_partial

/-- info: 'Gofre.Props.c141_apart_refused_partial' depends on axioms: [propext, Classical.choice, Quot.sound] -/
#guard_msgs in #print axioms Gofre.Props.c141_apart_refused_partial

/-- info: 'Gofre.Props.c141_texts_differ' depends on axioms: [propext, Quot.sound] -/
#guard_msgs in #print axioms Gofre.Props.c141_texts_differ

/-- info: 'Gofre.Props.c141_violated' depends on axioms: [propext, Quot.sound] -/
#guard_msgs in #print axioms Gofre.Props.c141_violated

/-- info: 'Gofre.Props.c142_guard' depends on axioms: [propext, Quot.sound] -/
#guard_msgs in #print axioms Gofre.Props.c142_guard

/-- info: 'Gofre.Props.c142_issued' depends on axioms: [propext, Quot.sound] -/
#guard_msgs in #print axioms Gofre.Props.c142_issued

/-- info: 'Gofre.Props.c142_once' depends on axioms: [propext, Quot.sound] -/
#guard_msgs in #print axioms Gofre.Props.c142_once

/-- info: 'Gofre.Props.c142_login' depends on axioms: [propext, Quot.sound] -/
#guard_msgs in #print axioms Gofre.Props.c142_login

/-- info: 'Gofre.Props.c142_login_refused' depends on axioms: [propext, Quot.sound] -/
#guard_msgs in #print axioms Gofre.Props.c142_login_refused

/-- info: 'Gofre.Props.c142_in_memory' depends on axioms: [propext, Classical.choice, Quot.sound] -/
#guard_msgs in #print axioms Gofre.Props.c142_in_memory

/-- info: 'Gofre.Props.c142_refines' depends on axioms: [propext, Quot.sound] -/
#guard_msgs in #print axioms Gofre.Props.c142_refines

/-- info: 'Gofre.Props.c142_refines_login' depends on axioms: [propext, Quot.sound] -/
#guard_msgs in #print axioms Gofre.Props.c142_refines_login

/-- info: 'Gofre.Props.c143_violated_never' depends on axioms: [propext, Quot.sound] -/
#guard_msgs in #print axioms Gofre.Props.c143_violated_never

/-- info: 'Gofre.Props.c143_refused_partial' depends on axioms: [propext, Quot.sound] -/
#guard_msgs in #print axioms Gofre.Props.c143_refused_partial

/-- info: 'Gofre.Props.c143_violated' depends on axioms: [propext, Quot.sound] -/
#guard_msgs in #print axioms Gofre.Props.c143_violated

/-- info: 'Gofre.Props.c144_matcher_partial' depends on axioms: [propext, Classical.choice, Quot.sound] -/
#guard_msgs in #print axioms Gofre.Props.c144_matcher_partial

/-- info: 'Gofre.Props.c144_unchanged_partial' depends on axioms: [propext, Classical.choice, Quot.sound] -/
#guard_msgs in #print axioms Gofre.Props.c144_unchanged_partial

/-- info: 'Gofre.Props.c144_served_partial' depends on axioms: [propext, Classical.choice, Quot.sound] -/
#guard_msgs in #print axioms Gofre.Props.c144_served_partial

/-- info: 'Gofre.Props.c144_violated' depends on axioms: [propext] -/
#guard_msgs in #print axioms Gofre.Props.c144_violated

/-- info: 'Gofre.Props.c145_good' depends on axioms: [propext, Quot.sound] -/
#guard_msgs in #print axioms Gofre.Props.c145_good

/-- info: 'Gofre.Props.c145_asked' depends on axioms: [propext, Quot.sound] -/
#guard_msgs in #print axioms Gofre.Props.c145_asked

/-- info: 'Gofre.Props.c145_login' depends on axioms: [propext, Quot.sound] -/
#guard_msgs in #print axioms Gofre.Props.c145_login

/-- info: 'Gofre.Props.c145_in_memory' depends on axioms: [propext, Classical.choice, Quot.sound] -/
#guard_msgs in #print axioms Gofre.Props.c145_in_memory

/-- info: 'Gofre.Props.c146_security_partial' depends on axioms: [propext, Classical.choice, Quot.sound] -/
#guard_msgs in #print axioms Gofre.Props.c146_security_partial

/-- info: 'Gofre.Props.c146_violated_never' depends on axioms: [propext] -/
#guard_msgs in #print axioms Gofre.Props.c146_violated_never

/-- info: 'Gofre.Props.c146_cors_partial' depends on axioms: [propext, Classical.choice, Quot.sound] -/
#guard_msgs in #print axioms Gofre.Props.c146_cors_partial

/-- info: 'Gofre.Props.c146_refused' depends on axioms: [propext, Classical.choice, Quot.sound] -/
#guard_msgs in #print axioms Gofre.Props.c146_refused

/-- info: 'Gofre.Props.c146_twice_partial' depends on axioms: [propext, Classical.choice, Quot.sound] -/
#guard_msgs in #print axioms Gofre.Props.c146_twice_partial

/-- info: 'Gofre.Props.c146_violated_never_cors' depends on axioms: [propext] -/
#guard_msgs in #print axioms Gofre.Props.c146_violated_never_cors

/-- info: 'Gofre.Props.c147_exact' depends on axioms: [propext, Classical.choice, Quot.sound] -/
#guard_msgs in #print axioms Gofre.Props.c147_exact

/-- info: 'Gofre.Props.c147_order_partial' depends on axioms: [propext, Classical.choice, Quot.sound] -/
#guard_msgs in #print axioms Gofre.Props.c147_order_partial

/-- info: 'Gofre.Props.c147_violated' depends on axioms: [propext] -/
#guard_msgs in #print axioms Gofre.Props.c147_violated

