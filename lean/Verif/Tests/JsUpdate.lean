import Verif.Tests.Base

/-!
# Tests of the JavaScript client: updating

clients/js/asset/test/: update.test.ts, resize.test.ts, remove.test.ts, act by act. The image a test
downloads is replaced by one of 900 bytes, which needs more than one Write. Key `k n` is the `n`-th
signer of a test, from `k 100` on the addresses written out in it.
-/

namespace Verif.Tests

open Verif Verif.Ex

/-- it can update the name of an asset — update.test.ts:22-50. -/
def update_1 : List Act := [
    .ok (create (args (k 2) (owner := some (k 3)) (payer := some identity)
      (name := txt "Digital Asset v1"))),
    .shows (k 2) (obj (name := some (txt "Digital Asset v1"))),
    .ok (update (k 2) (name := some (txt "Digital Asset v2"))),
    .shows (k 2) (obj (name := some (txt "Digital Asset v2")))]

theorem update_1_passes : passes update_1 = true := by decide +kernel

/-- it can update an asset to be immutable — update.test.ts:52-80. -/
def update_2 : List Act := [
    .ok (create (args (k 3) (owner := some (k 2)) (payer := some identity)
      (name := txt "Digital Asset v1"))),
    .shows (k 3) (obj (isMutable := some true)),
    .ok (update (k 3) (isMutable := some false)),
    .shows (k 3) (obj (isMutable := some false))]

theorem update_2_passes : passes update_2 = true := by decide +kernel

/-- it cannot update an immutable asset — update.test.ts:82-111. -/
def update_3 : List Act := [
    .ok (create (args (k 3) (owner := some (k 2)) (payer := some identity)
      (name := txt "Digital Asset v1") (isMutable := some false))),
    .shows (k 3) (obj (isMutable := some false)),
    .fails (update (k 3) (name := some (txt "Digital Asset v2"))) "Immutable asset"]

theorem update_3_passes : passes update_3 = true := by decide +kernel

/-- it can update the extension of an asset — update.test.ts:113-166. -/
def update_4 : List Act := [
    .ok (init (k 2) (some identity) (.attributes [(txt "Type", txt "Dark"), (txt "Clothes",
      txt "Purple Shirt"), (txt "Ears", txt "None")])),
    .ok (create (args (k 2) (owner := some (k 3)) (name := txt "Digital Asset"))),
    .shows (k 2) (obj (extensions := some [(.attributes [(txt "Type", txt "Dark"), (txt "Clothes",
      txt "Purple Shirt"), (txt "Ears", txt "None")])])),
    .ok (update (k 2) (payer := some identity) (extension := some (.attributes [(txt "Clothes",
      txt "Purple Shirt")]))),
    .shows (k 2) (obj (extensions := some [(.attributes [(txt "Clothes", txt "Purple Shirt")])]))]

theorem update_4_passes : passes update_4 = true := by decide +kernel

/-- it can update the extension of an asset with multiple extensions — update.test.ts:168-251. -/
def update_5 : List Act := [
    .ok (init (k 2) (some identity) (.attributes [(txt "Type", txt "Dark"), (txt "Clothes",
      txt "Purple Shirt"), (txt "Ears", txt "None")])),
    .ok (init (k 2) (some identity) (.links [(txt "metadata",
      txt "https://arweave.net/ebBV1qEYt65AKmM2J5wH_Vg-gjBa9YcwSYWFVt0rw9w")])),
    .ok (create (args (k 2) (owner := some (k 3)) (name := txt "Digital Asset"))),
    .shows (k 2) (obj (extensions := some [(.attributes [(txt "Type", txt "Dark"), (txt "Clothes",
      txt "Purple Shirt"), (txt "Ears", txt "None")]), (.links [(txt "metadata",
      txt "https://arweave.net/ebBV1qEYt65AKmM2J5wH_Vg-gjBa9YcwSYWFVt0rw9w")])])),
    .ok (update (k 2) (payer := some identity) (extension := some (.attributes [(txt "Clothes",
      txt "Purple Shirt")]))),
    .shows (k 2) (obj (extensions := some [(.attributes [(txt "Clothes", txt "Purple Shirt")]),
      (.links [(txt "metadata",
      txt "https://arweave.net/ebBV1qEYt65AKmM2J5wH_Vg-gjBa9YcwSYWFVt0rw9w")])]))]

theorem update_5_passes : passes update_5 = true := by decide +kernel

/-- it can extend the length of an extension — update.test.ts:253-306. -/
def update_6 : List Act := [
    .ok (init (k 2) (some identity) (.attributes [(txt "Type", txt "Dark")])),
    .ok (create (args (k 2) (owner := some (k 3)) (name := txt "Digital Asset"))),
    .shows (k 2) (obj (extensions := some [(.attributes [(txt "Type", txt "Dark")])])),
    .ok (update (k 2) (payer := some identity) (extension := some (.attributes [(txt "Type",
      txt "Dark"), (txt "Clothes", txt "Purple Shirt"), (txt "Ears", txt "None")]))),
    .shows (k 2) (obj (extensions := some [(.attributes [(txt "Type", txt "Dark"), (txt "Clothes",
      txt "Purple Shirt"), (txt "Ears", txt "None")])]))]

theorem update_6_passes : passes update_6 = true := by decide +kernel

/-- it can update an asset with a buffer — update.test.ts:308-370. -/
def update_7 : List Act := [
    .ok (init (k 2) (some identity) (.blob (txt "image/png") (image 900))),
    .present (k 2),
    .ok (create (args (k 2) (owner := some (k 3)) (name := txt "Blob Asset"))),
    .ext (k 2) 0 (.blob (txt "image/png") (image 900)),
    .ok (updateWithBuffer (k 2) (payer := some identity) (extension := (.blob (txt "image/png")
      (image 900)))),
    .ext (k 2) 0 (.blob (txt "image/png") (image 900))]

theorem update_7_passes : passes update_7 = true := by decide +kernel

/-- it can update an asset to add an extension — update.test.ts:372-412. -/
def update_8 : List Act := [
    .ok (create (args (k 2) (owner := some (k 3)) (payer := some identity)
      (name := txt "Digital Asset"))),
    .shows (k 2) (obj (extensions := some [])),
    .ok (update (k 2) (payer := some identity) (extension := some (.attributes [(txt "Type",
      txt "Dark"), (txt "Clothes", txt "Purple Shirt"), (txt "Ears", txt "None")]))),
    .shows (k 2) (obj (extensions := some [(.attributes [(txt "Type", txt "Dark"), (txt "Clothes",
      txt "Purple Shirt"), (txt "Ears", txt "None")])]))]

theorem update_8_passes : passes update_8 = true := by decide +kernel

/-- it can update an asset to add multiple extensions — update.test.ts:414-488. -/
def update_9 : List Act := [
    .ok (create (args (k 2) (owner := some (k 3)) (payer := some identity)
      (name := txt "Digital Asset"))),
    .shows (k 2) (obj (extensions := some [])),
    .ok (update (k 2) (payer := some identity) (extension := some (.attributes [(txt "Type",
      txt "Dark"), (txt "Clothes", txt "Purple Shirt"), (txt "Ears", txt "None")]))),
    .shows (k 2) (obj (extensions := some [(.attributes [(txt "Type", txt "Dark"), (txt "Clothes",
      txt "Purple Shirt"), (txt "Ears", txt "None")])])),
    .ok (update (k 2) (payer := some identity) (extension := some (.links [(txt "metadata",
      txt "https://arweave.net/ebBV1qEYt65AKmM2J5wH_Vg-gjBa9YcwSYWFVt0rw9w")]))),
    .shows (k 2) (obj (extensions := some [(.attributes [(txt "Type", txt "Dark"), (txt "Clothes",
      txt "Purple Shirt"), (txt "Ears", txt "None")]), (.links [(txt "metadata",
      txt "https://arweave.net/ebBV1qEYt65AKmM2J5wH_Vg-gjBa9YcwSYWFVt0rw9w")])]))]

theorem update_9_passes : passes update_9 = true := by decide +kernel

/-- it cannot update an asset to add a manager extension — update.test.ts:490-517. -/
def update_10 : List Act := [
    .ok (create (args (k 2) (owner := some (k 3)) (payer := some identity)
      (name := txt "Digital Asset"))),
    .shows (k 2) (obj (extensions := some [])),
    .fails (update (k 2) (payer := some identity) (extension := some (.manager (some identity)
      [.transfer]))) "Extension data invalid"]

theorem update_10_passes : passes update_10 = true := by decide +kernel

/-- it cannot update an asset to add a proxy extension — update.test.ts:519-552. -/
def update_11 : List Act := [
    .ok (create (args (k 2) (owner := some (k 3)) (payer := some identity)
      (name := txt "Digital Asset"))),
    .shows (k 2) (obj (extensions := some [])),
    .fails (update (k 2) (payer := some identity) (extension := some (.proxy prog (zeros 32) 255
      none))) "Extension data invalid"]

theorem update_11_passes : passes update_11 = true := by decide +kernel

/-- it can update an asset to add a large blob extension — update.test.ts:554-621. -/
def update_12 : List Act := [
    .ok (create (args (k 2) (owner := some (k 3)) (payer := some identity)
      (name := txt "Asset with large blob"))),
    .shows (k 2) (obj (extensions := some [])),
    .ok (init (k 4) (some identity) (.blob (txt "image/png") (image 10500))),
    .fails (update (k 2) (buffer := some (k 4))
      (payer := some identity)) "account data too small for instruction",
    .ok (call (.resize (k 2) none (some (identity, true)) none (.extend 5250))),
    .ok (update (k 2) (buffer := some (k 4)) (payer := some identity)),
    .shows (k 2) (obj (extensions := some [(.blob (txt "image/png") (image 10500))]))]

-- Too large for the kernel: evaluated.
#guard passes update_12

/-- it can resize an asset — resize.test.ts:6-33. -/
def resize_1 : List Act := [
    .ok (create (args (k 2) (owner := some (k 3)) (payer := some identity)
      (name := txt "Digital Asset"))),
    .ok (call (.resize (k 2) (some identity) (some (identity, true)) none (.extend 1000))),
    .size (k 2) 1168]

theorem resize_1_passes : passes resize_1 = true := by decide +kernel

/-- it can resize an asset to fit the minimum required size. — resize.test.ts:35-73. -/
def resize_2 : List Act := [
    .ok (create (args (k 2) (owner := some (k 3)) (payer := some identity)
      (name := txt "Digital Asset"))),
    .ok (call (.resize (k 2) (some identity) (some (identity, true)) none (.extend 1000))),
    .size (k 2) 1168,
    .ok (call (.resize (k 2) (some identity) (some (identity, true)) none .trim)),
    .size (k 2) 168]

theorem resize_2_passes : passes resize_2 = true := by decide +kernel

/-- it can remove an extension from an asset — remove.test.ts:21-96. -/
def remove_1 : List Act := [
    .ok (create (args (k 2) (owner := some (k 3)) (payer := some identity)
      (name := txt "Digital Asset")) (some [(.attributes [(txt "Type", txt "Dark"),
      (txt "Clothes", txt "Purple Shirt"), (txt "Ears", txt "None")]), (.metadata ⟨txt "MAD",
      txt "", txt "https://madlads.s3.us-west-2.amazonaws.com/json/8420.json", txt ""⟩),
      (.royalties 500 .empty)])),
    .shows (k 2) (obj (extensions := some [(.attributes [(txt "Type", txt "Dark"), (txt "Clothes",
      txt "Purple Shirt"), (txt "Ears", txt "None")]), (.royalties 500 (some .empty)), (.metadata
      (some (txt "MAD")) none
      (some (txt "https://madlads.s3.us-west-2.amazonaws.com/json/8420.json")) none)])),
    .ok (call (.remove (k 2) (some identity) none (some identity) .royalties)),
    .shows (k 2) (obj (extensions := some [(.attributes [(txt "Type", txt "Dark"), (txt "Clothes",
      txt "Purple Shirt"), (txt "Ears", txt "None")]), (.metadata (some (txt "MAD")) none
      (some (txt "https://madlads.s3.us-west-2.amazonaws.com/json/8420.json")) none)]))]

theorem remove_1_passes : passes remove_1 = true := by decide +kernel

/-- it can remove the first extension of an asset — remove.test.ts:98-168. -/
def remove_2 : List Act := [
    .ok (create (args (k 2) (owner := some (k 3)) (payer := some identity)
      (name := txt "Digital Asset")) (some [(.links [(txt "metadata",
      txt "https://arweave.net/ebBV1qEYt65AKmM2J5wH_Vg-gjBa9YcwSYWFVt0rw9w")]), (.attributes
      [(txt "Type", txt "Dark"), (txt "Clothes", txt "Purple Shirt"), (txt "Ears",
      txt "None")])])),
    .shows (k 2) (obj (extensions := some [(.links [(txt "metadata",
      txt "https://arweave.net/ebBV1qEYt65AKmM2J5wH_Vg-gjBa9YcwSYWFVt0rw9w")]), (.attributes
      [(txt "Type", txt "Dark"), (txt "Clothes", txt "Purple Shirt"), (txt "Ears",
      txt "None")])])),
    .ok (call (.remove (k 2) (some identity) none (some identity) .links)),
    .shows (k 2) (obj (extensions := some [(.attributes [(txt "Type", txt "Dark"), (txt "Clothes",
      txt "Purple Shirt"), (txt "Ears", txt "None")])]))]

theorem remove_2_passes : passes remove_2 = true := by decide +kernel

/-- it can remove the last extension of an asset — remove.test.ts:170-241. -/
def remove_3 : List Act := [
    .ok (create (args (k 2) (owner := some (k 3)) (payer := some identity)
      (name := txt "Digital Asset")) (some [(.links [(txt "metadata",
      txt "https://arweave.net/ebBV1qEYt65AKmM2J5wH_Vg-gjBa9YcwSYWFVt0rw9w")]), (.attributes
      [(txt "Type", txt "Dark"), (txt "Clothes", txt "Purple Shirt"), (txt "Ears",
      txt "None")])])),
    .shows (k 2) (obj (extensions := some [(.links [(txt "metadata",
      txt "https://arweave.net/ebBV1qEYt65AKmM2J5wH_Vg-gjBa9YcwSYWFVt0rw9w")]), (.attributes
      [(txt "Type", txt "Dark"), (txt "Clothes", txt "Purple Shirt"), (txt "Ears",
      txt "None")])])),
    .ok (call (.remove (k 2) (some identity) none (some identity) .attributes)),
    .shows (k 2) (obj (extensions := some [(.links [(txt "metadata",
      txt "https://arweave.net/ebBV1qEYt65AKmM2J5wH_Vg-gjBa9YcwSYWFVt0rw9w")])]))]

theorem remove_3_passes : passes remove_3 = true := by decide +kernel

/-- it cannot remove a manager extension — remove.test.ts:243-272. -/
def remove_4 : List Act := [
    .ok (create (args (k 2) (owner := some (k 3)) (payer := some identity)
      (name := txt "Managed Asset") (standard := some .managed)) (some [(.manager (some identity)
      [.transfer])])),
    .fails (call (.remove (k 2) (some identity) none (some identity)
      .manager)) "Extension data invalid"]

theorem remove_4_passes : passes remove_4 = true := by decide +kernel

/-- it cannot remove the grouping extension from a non-empty group — remove.test.ts:274-319. -/
def remove_5 : List Act := [
    .ok (create (args (k 2) (owner := some identity) (payer := some identity)
      (name := txt "Digital Asset")) (some [(.grouping 0 10 none)])),
    .ok (create (args (k 3) (group := some (k 2)) (payer := some identity) (name := txt "Asset"))),
    .shows (k 2) (obj (extensions := some [(.grouping (some 1) (some 10) none)])),
    .fails (call (.remove (k 2) (some identity) none (some identity)
      .grouping)) "Group is not empty"]

theorem remove_5_passes : passes remove_5 = true := by decide +kernel

/-- it can remove the grouping extension from an empty group — remove.test.ts:321-356. -/
def remove_6 : List Act := [
    .ok (create (args (k 2) (owner := some (k 3)) (payer := some identity)
      (name := txt "Digital Asset")) (some [(.grouping 0 10 none)])),
    .shows (k 2) (obj (extensions := some [(.grouping (some 0) (some 10) none)])),
    .ok (call (.remove (k 2) (some identity) none (some identity) .grouping)),
    .shows (k 2) (obj (extensions := some []))]

theorem remove_6_passes : passes remove_6 = true := by decide +kernel

/-- it cannot remove a non-existing extension — remove.test.ts:358-418. -/
def remove_7 : List Act := [
    .ok (create (args (k 2) (owner := some (k 3)) (payer := some identity)
      (name := txt "Digital Asset")) (some [(.attributes [(txt "Type", txt "Dark"),
      (txt "Clothes", txt "Purple Shirt"), (txt "Ears", txt "None")]), (.metadata ⟨txt "MAD",
      txt "", txt "https://madlads.s3.us-west-2.amazonaws.com/json/8420.json", txt ""⟩),
      (.royalties 500 .empty)])),
    .shows (k 2) (obj (extensions := some [(.attributes [(txt "Type", txt "Dark"), (txt "Clothes",
      txt "Purple Shirt"), (txt "Ears", txt "None")]), (.royalties 500 (some .empty)), (.metadata
      (some (txt "MAD")) none
      (some (txt "https://madlads.s3.us-west-2.amazonaws.com/json/8420.json")) none)])),
    .fails (call (.remove (k 2) none none (some identity) .links)) "Extension not found"]

theorem remove_7_passes : passes remove_7 = true := by decide +kernel

/-- The tests of this file. -/
def jsUpdateTests : List (List Act) :=
  [update_1, update_2, update_3, update_4, update_5, update_6, update_7, update_8, update_9,
   update_10, update_11, resize_1, resize_2, remove_1, remove_2, remove_3, remove_4, remove_5,
   remove_6, remove_7]

theorem jsUpdateTests_pass : AllPass jsUpdateTests :=
  .cons update_1_passes <| .cons update_2_passes <| .cons update_3_passes <|
  .cons update_4_passes <| .cons update_5_passes <| .cons update_6_passes <|
  .cons update_7_passes <| .cons update_8_passes <| .cons update_9_passes <|
  .cons update_10_passes <| .cons update_11_passes <| .cons resize_1_passes <|
  .cons resize_2_passes <| .cons remove_1_passes <| .cons remove_2_passes <|
  .cons remove_3_passes <| .cons remove_4_passes <| .cons remove_5_passes <|
  .cons remove_6_passes <| .cons remove_7_passes <| .nil

end Verif.Tests
