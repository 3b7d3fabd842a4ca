import Verif.Tests.Base

/-!
# Tests of the JavaScript client: creating, minting and burning

clients/js/asset/test/: allocate.test.ts, initialize.test.ts, create.test.ts, mint.test.ts, close.test.ts, burn.test.ts, act by act. The image a test
downloads is replaced by one of 900 bytes, which needs more than one Write. Key `k n` is the `n`-th
signer of a test, from `k 100` on the addresses written out in it.
-/

namespace Verif.Tests

open Verif Verif.Ex

/-- it can allocate an extension — allocate.test.ts:7-21. -/
def allocate_1 : List Act := [
    .ok (allocate (k 2) (some identity) (.attributes [(txt "head", txt "hat")])),
    .present (k 2)]

theorem allocate_1_passes : passes allocate_1 = true := by decide +kernel

/-- it can initialize a new asset with an extension — initialize.test.ts:6-20. -/
def initialize_1 : List Act := [
    .ok (init (k 2) (some identity) (.attributes [(txt "head", txt "hat")])),
    .present (k 2)]

theorem initialize_1_passes : passes initialize_1 = true := by decide +kernel

/-- it cannot initialize the same extension — initialize.test.ts:22-42. -/
def initialize_2 : List Act := [
    .ok (init (k 2) (some identity) (.attributes [(txt "head", txt "hat")])),
    .fails (init (k 2) (some identity) (.attributes [(txt "power",
      txt "wizard")])) "Asset already initialized"]

theorem initialize_2_passes : passes initialize_2 = true := by decide +kernel

/-- it can initialize a new asset with multiple extensions — initialize.test.ts:44-91. -/
def initialize_3 : List Act := [
    .ok (init (k 2) (some identity) (.attributes [(txt "head", txt "hat")])),
    .present (k 2),
    .grows (k 2) (init (k 2) (some identity) (.blob (txt "image/png") (image 900))),
    .present (k 2)]

theorem initialize_3_passes : passes initialize_3 = true := by decide +kernel

/-- it can create an asset — create.test.ts:22-44. -/
def create_1 : List Act := [
    .ok (create (args (k 2) (owner := some (k 3)) (payer := some identity)
      (name := txt "Digital Asset"))),
    .shows (k 2) (obj (state := some 0) (standard := some .nonFungible) (owner := some (k 3))
      (authority := some identity))]

theorem create_1_passes : passes create_1 = true := by decide +kernel

/-- it can create a new asset with an extension — create.test.ts:46-85. -/
def create_2 : List Act := [
    .ok (init (k 2) (some identity) (.attributes [(txt "head", txt "hat")])),
    .ok (create (args (k 2) (owner := some (k 3)) (name := txt "Digital Asset"))),
    .shows (k 2) (obj (state := some 0) (standard := some .nonFungible) (owner := some (k 3))
      (authority := some identity) (extensions := some [(.attributes [(txt "head", txt "hat")])]))]

theorem create_2_passes : passes create_2 = true := by decide +kernel

/-- it can create a new asset with multiple extensions — create.test.ts:87-149. -/
def create_3 : List Act := [
    .ok (create (args (k 2) (owner := some (k 3)) (payer := some identity)
      (name := txt "Digital Asset")) (some [(.attributes [(txt "Attributes Count", txt "2"),
      (txt "Type", txt "Dark"), (txt "Clothes", txt "Purple Shirt"), (txt "Ears", txt "None"),
      (txt "Mouth", txt "None"), (txt "Eyes", txt "None"), (txt "Hat", txt "Blue Cap")]), (.links
      [(txt "metadata",
      txt "https://arweave.net/ebBV1qEYt65AKmM2J5wH_Vg-gjBa9YcwSYWFVt0rw9w")])])),
    .shows (k 2) (obj (state := some 0) (standard := some .nonFungible) (owner := some (k 3))
      (authority := some identity) (extensions := some [(.attributes [(txt "Attributes Count",
      txt "2"), (txt "Type", txt "Dark"), (txt "Clothes", txt "Purple Shirt"), (txt "Ears",
      txt "None"), (txt "Mouth", txt "None"), (txt "Eyes", txt "None"), (txt "Hat",
      txt "Blue Cap")]), (.links [(txt "metadata",
      txt "https://arweave.net/ebBV1qEYt65AKmM2J5wH_Vg-gjBa9YcwSYWFVt0rw9w")])]))]

theorem create_3_passes : passes create_3 = true := by decide +kernel

/-- it can create a soulbound asset — create.test.ts:151-175. -/
def create_4 : List Act := [
    .ok (create (args (k 2) (owner := some (k 3)) (payer := some identity)
      (name := txt "Soulbound Asset") (standard := some .soulbound))),
    .shows (k 2) (obj (state := some 0) (standard := some .soulbound) (owner := some (k 3))
      (authority := some identity) (name := some (txt "Soulbound Asset")))]

theorem create_4_passes : passes create_4 = true := by decide +kernel

/-- it can create an asset with a group — create.test.ts:177-234. -/
def create_5 : List Act := [
    .ok (init (k 3) (some identity) (.grouping 0 10 none)),
    .ok (create (args (k 3) (authority := some ((k 2), false)) (name := txt "Group"))),
    .shows (k 3) (obj (group := some none) (extensions := some [(.grouping (some 0) (some 10)
      none)])),
    .ok (create (args (k 4) (authority := some ((k 2), true)) (group := some (k 3))
      (payer := some identity) (name := txt "Asset"))),
    .shows (k 4) (obj (name := some (txt "Asset")) (group := some (some (k 3)))),
    .shows (k 3) (obj (group := some none) (extensions := some [(.grouping (some 1) (some 10)
      none)]))]

theorem create_5_passes : passes create_5 = true := by decide +kernel

/-- it cannot set a group on create with wrong authority — create.test.ts:236-277. -/
def create_6 : List Act := [
    .ok (init (k 3) (some identity) (.grouping 0 10 none)),
    .ok (create (args (k 3) (authority := some ((k 2), false)) (name := txt "Group"))),
    .shows (k 3) (obj (group := some none) (extensions := some [(.grouping (some 0) (some 10)
      none)])),
    .fails (create (args (k 4) (group := some (k 3)) (payer := some identity)
      (name := txt "Asset"))) "Invalid authority"]

theorem create_6_passes : passes create_6 = true := by decide +kernel

/-- it cannot set a group on create with authority not a signer — create.test.ts:279-321. -/
def create_7 : List Act := [
    .ok (init (k 3) (some identity) (.grouping 0 10 none)),
    .ok (create (args (k 3) (authority := some ((k 2), false)) (name := txt "Group"))),
    .shows (k 3) (obj (group := some none) (extensions := some [(.grouping (some 0) (some 10)
      none)])),
    .fails (create (args (k 4) (authority := some ((k 2), false)) (group := some (k 3))
      (payer := some identity) (name := txt "Asset"))) "missing required signature"]

theorem create_7_passes : passes create_7 = true := by decide +kernel

/-- it set a group on create with authority as a delegate — create.test.ts:323-371. -/
def create_8 : List Act := [
    .ok (init (k 4) (some identity) (.grouping 0 10 (some (k 3)))),
    .ok (create (args (k 4) (authority := some ((k 2), false)) (payer := some identity)
      (name := txt "Group"))),
    .shows (k 4) (obj (extensions := some [(.grouping (some 0) (some 10) (some (some (k 3))))])),
    .ok (create (args (k 5) (authority := some ((k 2), false)) (group := some (k 4))
      (groupAuthority := some (k 3)) (payer := some identity) (name := txt "Asset"))),
    .shows (k 5) (obj (group := some (some (k 4))) (authority := some (k 2)))]

theorem create_8_passes : passes create_8 = true := by decide +kernel

/-- it can create an asset with a collection — create.test.ts:373-449. -/
def create_9 : List Act := [
    .ok (create (args (k 4) (authority := some ((k 3), true)) (payer := some identity)
      (name := txt "Mad Lads")) (some [(.grouping 0 10000 none)])),
    .ok (create (args (k 2) (authority := some ((k 3), true)) (owner := some identity)
      (group := some (k 4)) (payer := some identity) (name := txt "Mad Lads #8420"))
      (some [(.metadata ⟨txt "MAD", txt "",
      txt "https://madlads.s3.us-west-2.amazonaws.com/json/8420.json", txt ""⟩), (.royalties 500
      .empty), (.creators [⟨(k 100), false, 0⟩, ⟨(k 101), false, 100⟩])])),
    .shows (k 2) (obj (state := some 0) (standard := some .nonFungible) (owner := some identity)
      (authority := some (k 3)) (group := some (some (k 4))) (extensions := some [(.metadata
      (some (txt "MAD")) none
      (some (txt "https://madlads.s3.us-west-2.amazonaws.com/json/8420.json")) none), (.creators
      [((k 100), none, 0), ((k 101), none, 100)]), (.royalties 500 (some .empty))]))]

theorem create_9_passes : passes create_9 = true := by decide +kernel

/-- it can mint an asset — mint.test.ts:20-42. -/
def mint_1 : List Act := [
    .ok (mint (args (k 2) (owner := some (k 3)) (payer := some identity)
      (name := txt "Digital Asset"))),
    .shows (k 2) (obj (state := some 0) (standard := some .nonFungible) (owner := some (k 3))
      (authority := some identity))]

theorem mint_1_passes : passes mint_1 = true := by decide +kernel

/-- it can mint an asset with an extension — mint.test.ts:44-78. -/
def mint_2 : List Act := [
    .ok (mint (args (k 2) (owner := some (k 3)) (payer := some identity)
      (name := txt "Digital Asset") (extensions := [(.attributes [(txt "head", txt "hat")])]))),
    .shows (k 2) (obj (state := some 0) (standard := some .nonFungible) (owner := some (k 3))
      (authority := some identity) (extensions := some [(.attributes [(txt "head", txt "hat")])]))]

theorem mint_2_passes : passes mint_2 = true := by decide +kernel

/-- it can mint a new asset with multiple extensions — mint.test.ts:80-148. -/
def mint_3 : List Act := [
    .ok (mint (args (k 2) (authority := some ((k 100), false)) (owner := some (k 3))
      (payer := some identity) (name := txt "SMB #1355 (test)") (extensions := [(.attributes
      [(txt "Attributes Count", txt "2"), (txt "Type", txt "Skeleton"), (txt "Clothes",
      txt "Orange Jacket"), (txt "Ears", txt "None"), (txt "Mouth", txt "None"), (txt "Eyes",
      txt "None"), (txt "Hat", txt "Crown")]), (.creators [⟨(k 100), false, 0⟩, ⟨(k 101), false,
      100⟩, ⟨(k 102), false, 0⟩]), (.links [(txt "external_url",
      txt "https://solanamonkey.business/")]), (.blob (txt "image/png") (image 900)), (.metadata
      ⟨txt "SMB",
      txt "SMB is a collection of 5000 randomly generated 24x24 pixels NFTs on the Solana Blockchain.          Each SolanaMonkey is unique and comes with different type and attributes varying in rarity.",
      txt "", txt ""⟩), (.royalties 500 .empty)]))),
    .shows (k 2) (obj (state := some 0) (standard := some .nonFungible) (owner := some (k 3)))]

theorem mint_3_passes : passes mint_3 = true := by decide +kernel

/-- it can close an uninitialized asset buffer account — close.test.ts:6-28. -/
def close_1 : List Act := [
    .ok (init (k 2) (some identity) (.attributes [(txt "head", txt "hat")])),
    .present (k 2),
    .ok (call (.close (k 2) identity)),
    .absent (k 2)]

theorem close_1_passes : passes close_1 = true := by decide +kernel

/-- it cannot close an initialized asset account — close.test.ts:30-52. -/
def close_2 : List Act := [
    .ok (create (args (k 2) (owner := some (k 3)) (payer := some identity)
      (name := txt "Digital Asset"))),
    .fails (call (.close (k 2) identity)) "already initialized"]

theorem close_2_passes : passes close_2 = true := by decide +kernel

/-- it can burn an asset as an owner — burn.test.ts:20-51. -/
def burn_1 : List Act := [
    .ok (create (args (k 2) (owner := some (k 3)) (payer := some identity)
      (name := txt "Digital Asset"))),
    .shows (k 2) (obj (state := some 0) (standard := some .nonFungible) (owner := some (k 3))
      (authority := some identity)),
    .ok (call (.burn (k 2) (k 3) none none)),
    .absent (k 2)]

theorem burn_1_passes : passes burn_1 = true := by decide +kernel

/-- it can burn an asset as a delegate — burn.test.ts:53-90. -/
def burn_2 : List Act := [
    .ok (create (args (k 2) (owner := some (k 3)) (payer := some identity)
      (name := txt "Digital Asset"))),
    .shows (k 2) (obj (owner := some (k 3))),
    .ok (call (.approve (k 2) (some (k 3)) (k 4) (.some [.burn]))),
    .ok (call (.burn (k 2) (k 4) none none)),
    .absent (k 2)]

theorem burn_2_passes : passes burn_2 = true := by decide +kernel

/-- invalid signer cannot burn — burn.test.ts:92-128. -/
def burn_3 : List Act := [
    .ok (create (args (k 2) (owner := some (k 3)) (payer := some identity)
      (name := txt "Digital Asset"))),
    .shows (k 2) (obj (state := some 0) (standard := some .nonFungible) (owner := some (k 3))
      (authority := some identity)),
    .fails (call (.burn (k 2) (k 4) none none)) "Invalid owner or burn delegate",
    .present (k 2)]

theorem burn_3_passes : passes burn_3 = true := by decide +kernel

/-- it ungroups an asset on burn — burn.test.ts:130-199. -/
def burn_4 : List Act := [
    .ok (mint (args (k 2) (payer := some identity) (name := txt "Group")
      (extensions := [(.grouping 0 10 none)]))),
    .shows (k 2) (obj (group := some none) (extensions := some [(.grouping (some 0) (some 10)
      none)])),
    .ok (mint (args (k 3) (group := some (k 2)) (payer := some identity) (name := txt "Asset"))),
    .shows (k 3) (obj (group := some (some (k 2)))),
    .shows (k 2) (obj (group := some none) (extensions := some [(.grouping (some 1) (some 10)
      none)])),
    .ok (call (.burn (k 3) identity none (some (k 2)))),
    .absent (k 3),
    .shows (k 2) (obj (group := some none) (extensions := some [(.grouping (some 0) (some 10)
      none)]))]

theorem burn_4_passes : passes burn_4 = true := by decide +kernel

/-- it cannot burn a grouped asset without group account — burn.test.ts:201-259. -/
def burn_5 : List Act := [
    .ok (mint (args (k 2) (payer := some identity) (name := txt "Group")
      (extensions := [(.grouping 0 10 none)]))),
    .shows (k 2) (obj (group := some none) (extensions := some [(.grouping (some 0) (some 10)
      none)])),
    .ok (mint (args (k 3) (group := some (k 2)) (payer := some identity) (name := txt "Asset"))),
    .shows (k 3) (obj (group := some (some (k 2)))),
    .shows (k 2) (obj (group := some none) (extensions := some [(.grouping (some 1) (some 10)
      none)])),
    .fails (call (.burn (k 3) identity none none)) "insufficient account keys for instruction"]

theorem burn_5_passes : passes burn_5 = true := by decide +kernel

/-- it cannot burn a non-empty group asset — burn.test.ts:261-319. -/
def burn_6 : List Act := [
    .ok (mint (args (k 2) (payer := some identity) (name := txt "Group")
      (extensions := [(.grouping 0 10 none)]))),
    .shows (k 2) (obj (group := some none) (extensions := some [(.grouping (some 0) (some 10)
      none)])),
    .ok (mint (args (k 3) (group := some (k 2)) (payer := some identity) (name := txt "Asset"))),
    .shows (k 3) (obj (group := some (some (k 2)))),
    .shows (k 2) (obj (group := some none) (extensions := some [(.grouping (some 1) (some 10)
      none)])),
    .fails (call (.burn (k 2) identity none none)) "Group is not empty"]

theorem burn_6_passes : passes burn_6 = true := by decide +kernel

/-- it can burn an empty group asset — burn.test.ts:321-342. -/
def burn_7 : List Act := [
    .ok (mint (args (k 2) (payer := some identity) (name := txt "Group")
      (extensions := [(.grouping 0 10 none)]))),
    .ok (call (.burn (k 2) identity none none)),
    .absent (k 2)]

theorem burn_7_passes : passes burn_7 = true := by decide +kernel

/-- The tests of this file. -/
def jsLifeTests : List (List Act) :=
  [allocate_1, initialize_1, initialize_2, initialize_3, create_1, create_2, create_3, create_4,
   create_5, create_6, create_7, create_8, create_9, mint_1, mint_2, mint_3, close_1, close_2,
   burn_1, burn_2, burn_3, burn_4, burn_5, burn_6, burn_7]

theorem jsLifeTests_pass : AllPass jsLifeTests :=
  .cons allocate_1_passes <| .cons initialize_1_passes <| .cons initialize_2_passes <|
  .cons initialize_3_passes <| .cons create_1_passes <| .cons create_2_passes <|
  .cons create_3_passes <| .cons create_4_passes <| .cons create_5_passes <|
  .cons create_6_passes <| .cons create_7_passes <| .cons create_8_passes <|
  .cons create_9_passes <| .cons mint_1_passes <| .cons mint_2_passes <| .cons mint_3_passes <|
  .cons close_1_passes <| .cons close_2_passes <| .cons burn_1_passes <| .cons burn_2_passes <|
  .cons burn_3_passes <| .cons burn_4_passes <| .cons burn_5_passes <| .cons burn_6_passes <|
  .cons burn_7_passes <| .nil

end Verif.Tests
