import Verif.Tests.Base

/-!
# Tests of the JavaScript client: the other extensions

clients/js/asset/test/: extensions/blob.test.ts, extensions/bucket.test.ts, extensions/manager.test.ts, extensions/metadata.test.ts, extensions/properties.test.ts, extensions/royalties.test.ts, act by act. The image a test
downloads is replaced by one of 900 bytes, which needs more than one Write. Key `k n` is the `n`-th
signer of a test, from `k 100` on the addresses written out in it.
-/

namespace Verif.Tests

open Verif Verif.Ex

/-- it can create a new asset with a blob — extensions/blob.test.ts:16-65. -/
def blob_1 : List Act := [
    .ok (init (k 2) (some identity) (.blob (txt "image/png") (image 900))),
    .present (k 2),
    .ok (create (args (k 2) (owner := some (k 3)) (name := txt "Blob Asset"))),
    .shows (k 2) (obj (state := some 0) (standard := some .nonFungible) (owner := some (k 3))
      (authority := some identity)),
    .ext (k 2) 0 (.blob (txt "image/png") (image 900))]

theorem blob_1_passes : passes blob_1 = true := by decide +kernel

/-- it can create a new asset with a bucket — extensions/bucket.test.ts:16-65. -/
def bucket_1 : List Act := [
    .ok (init (k 2) (some identity) (.bucket (image 900))),
    .present (k 2),
    .ok (create (args (k 2) (owner := some (k 3)) (name := txt "Bucket Asset"))),
    .shows (k 2) (obj (state := some 0) (standard := some .nonFungible) (owner := some (k 3))
      (authority := some identity)),
    .ext (k 2) 0 (.bucket (image 900))]

theorem bucket_1_passes : passes bucket_1 = true := by decide +kernel

/-- it can create a new managed asset — extensions/manager.test.ts:19-60. -/
def manager_1 : List Act := [
    .ok (init (k 2) (some identity) (.manager (some identity) [.transfer])),
    .present (k 2),
    .ok (create (args (k 2) (owner := some (k 3)) (name := txt "Managed Asset")
      (standard := some .managed))),
    .shows (k 2) (obj (state := some 0) (standard := some .managed) (owner := some (k 3))
      (authority := some identity) (extensions := some [(.manager (some identity) [.transfer])]))]

theorem manager_1_passes : passes manager_1 = true := by decide +kernel

/-- it can create a new managed asset with multiple delegate roles — extensions/manager.test.ts:62-106. -/
def manager_2 : List Act := [
    .ok (init (k 2) (some identity) (.manager (some identity) [.transfer, .burn])),
    .present (k 2),
    .ok (create (args (k 2) (owner := some (k 3)) (name := txt "Managed Asset")
      (standard := some .managed))),
    .shows (k 2) (obj (state := some 0) (standard := some .managed) (owner := some (k 3))
      (authority := some identity) (extensions := some [(.manager (some identity) [.transfer,
      .burn])]))]

theorem manager_2_passes : passes manager_2 = true := by decide +kernel

/-- it cannot create a new managed asset without the manager extension — extensions/manager.test.ts:108-125. -/
def manager_3 : List Act := [
    .fails (create (args (k 2) (owner := some (k 3)) (payer := some identity)
      (name := txt "Managed Asset") (standard := some .managed))) "Extension data invalid"]

theorem manager_3_passes : passes manager_3 = true := by decide +kernel

/-- it cannot create a non-managed asset with the manager extension — extensions/manager.test.ts:127-152. -/
def manager_4 : List Act := [
    .ok (init (k 2) (some identity) (.manager (some identity) [.transfer])),
    .present (k 2),
    .fails (create (args (k 2) (owner := some (k 3)) (payer := some identity)
      (name := txt "Non-Managed Asset"))) "Extension data invalid"]

theorem manager_4_passes : passes manager_4 = true := by decide +kernel

/-- it can lock an asset with the manager delegate — extensions/manager.test.ts:154-207. -/
def manager_5 : List Act := [
    .ok (init (k 2) (some identity) (.manager (some (k 4)) [.transfer, .lock, .burn])),
    .present (k 2),
    .ok (create (args (k 2) (owner := some (k 3)) (name := txt "Managed Asset")
      (standard := some .managed))),
    .ok (call (.lock (k 2) (some (k 4)))),
    .shows (k 2) (obj (state := some 1) (standard := some .managed) (owner := some (k 3))
      (authority := some identity) (delegate := some none) (extensions := some [(.manager
      (some (k 4)) [.transfer, .lock, .burn])]))]

theorem manager_5_passes : passes manager_5 = true := by decide +kernel

/-- it can unlock an asset with the manager delegate — extensions/manager.test.ts:209-276. -/
def manager_6 : List Act := [
    .ok (init (k 2) (some identity) (.manager (some (k 4)) [.transfer, .lock, .burn])),
    .present (k 2),
    .ok (create (args (k 2) (owner := some (k 3)) (name := txt "Managed Asset")
      (standard := some .managed))),
    .ok (call (.lock (k 2) (some (k 3)))),
    .shows (k 2) (obj (state := some 1) (standard := some .managed) (owner := some (k 3))),
    .ok (call (.unlock (k 2) (some (k 4)))),
    .shows (k 2) (obj (state := some 0) (standard := some .managed) (owner := some (k 3))
      (authority := some identity) (delegate := some none) (extensions := some [(.manager
      (some (k 4)) [.transfer, .lock, .burn])]))]

theorem manager_6_passes : passes manager_6 = true := by decide +kernel

/-- it can create a new asset with a metadata — extensions/metadata.test.ts:16-63. -/
def metadata_1 : List Act := [
    .ok (init (k 2) (some identity) (.metadata ⟨txt "SMB", txt "A metadata extension",
      txt "https://arweave.net/62Z5yOFbIeFqvoOl-aq75EAGSDzS-GxpIKC2ws5LVDc",
      txt "https://arweave.net/Va823FYwx0jqbbtpGjJryJCr2FtJwfRTM1f8nNn3dyg"⟩)),
    .present (k 2),
    .ok (create (args (k 2) (owner := some (k 3)) (name := txt "Metadata Asset"))),
    .shows (k 2) (obj (state := some 0) (standard := some .nonFungible) (owner := some (k 3))
      (authority := some identity) (extensions := some [(.metadata (some (txt "SMB"))
      (some (txt "A metadata extension"))
      (some (txt "https://arweave.net/62Z5yOFbIeFqvoOl-aq75EAGSDzS-GxpIKC2ws5LVDc"))
      (some (txt "https://arweave.net/Va823FYwx0jqbbtpGjJryJCr2FtJwfRTM1f8nNn3dyg")))]))]

theorem metadata_1_passes : passes metadata_1 = true := by decide +kernel

/-- it can create a new asset with properties — extensions/properties.test.ts:18-90. -/
def properties_1 : List Act := [
    .ok (init (k 2) (some identity) (.properties [(txt "name", .text (txt "nifty")),
      (txt "version", .number 1), (txt "alpha", .boolean false)])),
    .present (k 2),
    .ok (create (args (k 2) (owner := some (k 3)) (name := txt "Asset with creators"))),
    .shows (k 2) (obj (state := some 0) (standard := some .nonFungible) (owner := some (k 3))
      (authority := some identity) (extensions := some [(.properties [(txt "name", .text
      (txt "nifty")), (txt "version", .number 1), (txt "alpha", .boolean false)])])),
    .property (k 2) (txt "name") (.text (txt "nifty")),
    .property (k 2) (txt "version") (.number 1),
    .property (k 2) (txt "alpha") (.boolean false)]

theorem properties_1_passes : passes properties_1 = true := by decide +kernel

/-- it can mint a new asset a royalties extension with a PubkeyMatch constraint — extensions/royalties.test.ts:21-66. -/
def royalties_1 : List Act := [
    .ok (mint (args (k 2) (owner := some (k 3)) (payer := some identity)
      (name := txt "Digital Asset") (standard := some .nonFungible) (isMutable := some true)
      (extensions := [(.royalties 500 (.pubkeyMatch 0 [(k 100)]))]))),
    .shows (k 2) (obj (state := some 0) (standard := some .nonFungible) (owner := some (k 3))
      (authority := some identity) (extensions := some [(.royalties 500 (some (.pubkeyMatch 0
      [(k 100)])))]))]

theorem royalties_1_passes : passes royalties_1 = true := by decide +kernel

/-- it can mint a new asset with royalties extension with a OwnedBy constraint — extensions/royalties.test.ts:68-113. -/
def royalties_2 : List Act := [
    .ok (mint (args (k 2) (owner := some (k 3)) (payer := some identity)
      (name := txt "Digital Asset") (standard := some .nonFungible) (isMutable := some true)
      (extensions := [(.royalties 500 (.ownedBy 0 [(k 100)]))]))),
    .shows (k 2) (obj (state := some 0) (standard := some .nonFungible) (owner := some (k 3))
      (authority := some identity) (extensions := some [(.royalties 500 (some (.ownedBy 0
      [(k 100)])))]))]

theorem royalties_2_passes : passes royalties_2 = true := by decide +kernel

/-- it can mint a new asset with a royalties extension with NOT constraint — extensions/royalties.test.ts:115-154. -/
def royalties_3 : List Act := [
    .ok (mint (args (k 2) (owner := some (k 3)) (payer := some identity)
      (name := txt "Digital Asset") (standard := some .nonFungible) (isMutable := some true)
      (extensions := [(.royalties 500 (.not (.ownedBy 0 [(k 100)])))]))),
    .shows (k 2) (obj (state := some 0) (standard := some .nonFungible) (owner := some (k 3))
      (authority := some identity) (extensions := some [(.royalties 500 (some (.not (.ownedBy 0
      [(k 100)]))))]))]

theorem royalties_3_passes : passes royalties_3 = true := by decide +kernel

/-- it can mint a new asset with a royalties extension with an AND constraint — extensions/royalties.test.ts:156-198. -/
def royalties_4 : List Act := [
    .ok (mint (args (k 2) (owner := some (k 3)) (payer := some identity)
      (name := txt "Digital Asset") (standard := some .nonFungible) (isMutable := some true)
      (extensions := [(.royalties 500 (.and [(.ownedBy 0 [(k 100)]), (.pubkeyMatch 0
      [(k 101)])]))]))),
    .shows (k 2) (obj (state := some 0) (standard := some .nonFungible) (owner := some (k 3))
      (authority := some identity) (extensions := some [(.royalties 500 (some (.and [(.ownedBy 0
      [(k 100)]), (.pubkeyMatch 0 [(k 101)])])))]))]

theorem royalties_4_passes : passes royalties_4 = true := by decide +kernel

/-- it can mint a new asset with a royalties extension with an OR constraint — extensions/royalties.test.ts:200-242. -/
def royalties_5 : List Act := [
    .ok (mint (args (k 2) (owner := some (k 3)) (payer := some identity)
      (name := txt "Digital Asset") (standard := some .nonFungible) (isMutable := some true)
      (extensions := [(.royalties 500 (.or [(.ownedBy 0 [(k 100)]), (.pubkeyMatch 0
      [(k 101)])]))]))),
    .shows (k 2) (obj (state := some 0) (standard := some .nonFungible) (owner := some (k 3))
      (authority := some identity) (extensions := some [(.royalties 500 (some (.or [(.ownedBy 0
      [(k 100)]), (.pubkeyMatch 0 [(k 101)])])))]))]

theorem royalties_5_passes : passes royalties_5 = true := by decide +kernel

/-- it can mint a new asset with a nested royalties extension — extensions/royalties.test.ts:244-321. -/
def royalties_6 : List Act := [
    .ok (mint (args (k 2) (owner := some (k 3)) (payer := some identity)
      (name := txt "Digital Asset") (standard := some .nonFungible) (isMutable := some true)
      (extensions := [(.royalties 500 (.and [(.ownedBy 0 [(k 100), (k 101), (k 102)]), (.or
      [(.pubkeyMatch 0 [(k 102)]), (.not (.not (.not (.pubkeyMatch 0 [(k 103)]))))])]))]))),
    .shows (k 2) (obj (state := some 0) (standard := some .nonFungible) (owner := some (k 3))
      (authority := some identity) (extensions := some [(.royalties 500 (some (.and [(.ownedBy 0
      [(k 100), (k 101), (k 102)]), (.or [(.pubkeyMatch 0 [(k 102)]), (.not (.not (.not
      (.pubkeyMatch 0 [(k 103)]))))])])))]))]

theorem royalties_6_passes : passes royalties_6 = true := by decide +kernel

/-- The tests of this file. -/
def jsExtTests : List (List Act) :=
  [blob_1, bucket_1, manager_1, manager_2, manager_3, manager_4, manager_5, manager_6, metadata_1,
   properties_1, royalties_1, royalties_2, royalties_3, royalties_4, royalties_5, royalties_6]

theorem jsExtTests_pass : AllPass jsExtTests :=
  .cons blob_1_passes <| .cons bucket_1_passes <| .cons manager_1_passes <|
  .cons manager_2_passes <| .cons manager_3_passes <| .cons manager_4_passes <|
  .cons manager_5_passes <| .cons manager_6_passes <| .cons metadata_1_passes <|
  .cons properties_1_passes <| .cons royalties_1_passes <| .cons royalties_2_passes <|
  .cons royalties_3_passes <| .cons royalties_4_passes <| .cons royalties_5_passes <|
  .cons royalties_6_passes <| .nil

end Verif.Tests
