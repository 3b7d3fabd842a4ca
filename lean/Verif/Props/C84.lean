import Verif.Tests.JsLife
import Verif.Tests.JsDelegate
import Verif.Tests.JsGroup
import Verif.Tests.JsUpdate
import Verif.Tests.JsCreators
import Verif.Tests.JsExt
import Verif.Tests.Rust
import Verif.Tests.Types
import Verif.Tests.Programs

/-!
# C84 — the tests of the repository pass
-/

namespace Verif.Props

open Verif Verif.Ex Verif.Tests

/-- **C84**, the JavaScript client: every test of clients/js/asset/test but one passes. The one left out,
`update_12`, is evaluated (`#guard`), not proved: its blob of 10500 bytes is too long for the kernel. -/
theorem C84_js_partial :
    ∀ t ∈ jsLifeTests ++ jsDelegateTests ++ jsGroupTests ++ jsUpdateTests ++ jsCreatorsTests ++ jsExtTests,
      passes t = true := by
  simp only [List.mem_append]
  rintro t (((((h | h) | h) | h) | h) | h)
  · exact jsLifeTests_pass.passes t h
  · exact jsDelegateTests_pass.passes t h
  · exact jsGroupTests_pass.passes t h
  · exact jsUpdateTests_pass.passes t h
  · exact jsCreatorsTests_pass.passes t h
  · exact jsExtTests_pass.passes t h

/-- There are 119 of them. -/
theorem C84_count :
    (jsLifeTests ++ jsDelegateTests ++ jsGroupTests ++ jsUpdateTests ++ jsCreatorsTests ++
      jsExtTests).length = 119 := by decide +kernel

/-- **C84**, the Rust client: every test of clients/rust/asset/tests passes. -/
theorem C84_rust : ∀ t ∈ rustTests, passes t = true := rustTests_pass.passes

/-- **C84**, the types crate: every unit test passes. -/
theorem C84_types : ∀ t ∈ unitTests, t = true := by
  rw [unitTests_pass]
  intro t h
  exact List.eq_of_mem_replicate h

/-- **C84**, the proxy program: every test of clients/js/proxy/test passes. -/
theorem C84_proxy : ∀ t ∈ proxyTests, worldPasses t = true := proxyTests_pass.passes

/-- **C84**, the bridge: every test of clients/js/bridge/test passes. -/
theorem C84_bridge : ∀ t ∈ bridgeTests, worldPasses t = true := bridgeTests_pass.passes

/-! A test that expects something else does not pass: another error, another owner, an extension that
is not there, a transaction that goes through although it must fail. -/

example : passes [.fails (call (.lock (k 2) none)) "Asset already initialized"] = false := by
  decide +kernel

example : passes [.ok (create (args (k 2) (owner := some (k 3)) (name := txt "a"))),
    .shows (k 2) (obj (owner := some (k 4)))] = false := by decide +kernel

example : passes [.ok (create (args (k 2) (owner := some (k 3)) (name := txt "a"))),
    .shows (k 2) (obj (extensions := some [.bucket []]))] = false := by decide +kernel

example : passes [.failsWith (rust .create (rustCreate (k 2) identity "name"))
    (.asset .extensionLengthInvalid)] = false := by decide +kernel

/-- Crossing twice gives the token back; it is not in the vault then. -/
example : worldPasses (bridge_back false ++ [.holds (vaultOf (k 3)) (k 3)]) = false := by decide +kernel

/-- Someone else cannot cross. -/
example : worldPasses [.token (nft (k 3) "" "" false) (k 2), .ok 0 (newBridged (k 3) false),
    .ok 0 (crossing (k 3) (k 5))] = false := by decide +kernel

example : hasType (opBuild 5 []) 4 = false := by decide +kernel

end Verif.Props
