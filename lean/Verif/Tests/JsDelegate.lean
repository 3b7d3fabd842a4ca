import Verif.Tests.Base

/-!
# Tests of the JavaScript client: delegates, locks and owners

clients/js/asset/test/: approve.test.ts, revoke.test.ts, lock.test.ts, unlock.test.ts, transfer.test.ts, handover.test.ts, act by act. The image a test
downloads is replaced by one of 900 bytes, which needs more than one Write. Key `k n` is the `n`-th
signer of a test, from `k 100` on the addresses written out in it.
-/

namespace Verif.Tests

open Verif Verif.Ex

/-- it can set a delegate with a single role — approve.test.ts:13-44. -/
def approve_1 : List Act := [
    .ok (create (args (k 2) (owner := some (k 3)) (payer := some identity)
      (name := txt "Digital Asset"))),
    .ok (call (.approve (k 2) (some (k 3)) (k 4) (.some [.transfer]))),
    .shows (k 2) (obj (delegate := some (some ((k 4), (some [.transfer])))))]

theorem approve_1_passes : passes approve_1 = true := by decide +kernel

/-- it can set a delegate with multiple role — approve.test.ts:46-80. -/
def approve_2 : List Act := [
    .ok (create (args (k 2) (owner := some (k 3)) (payer := some identity)
      (name := txt "Digital Asset"))),
    .ok (call (.approve (k 2) (some (k 3)) (k 4) (.some [.transfer, .burn]))),
    .shows (k 2) (obj (delegate := some (some ((k 4), (some [.transfer, .burn])))))]

theorem approve_2_passes : passes approve_2 = true := by decide +kernel

/-- it can set a new role to an existing delegate — approve.test.ts:82-129. -/
def approve_3 : List Act := [
    .ok (create (args (k 2) (owner := some (k 3)) (payer := some identity)
      (name := txt "Digital Asset"))),
    .ok (call (.approve (k 2) (some (k 3)) (k 4) (.some [.transfer]))),
    .shows (k 2) (obj (delegate := some (some ((k 4), (some [.transfer]))))),
    .ok (call (.approve (k 2) (some (k 3)) (k 4) (.some [.burn]))),
    .shows (k 2) (obj (delegate := some (some ((k 4), (some [.transfer, .burn])))))]

theorem approve_3_passes : passes approve_3 = true := by decide +kernel

/-- it sets all roles when passing in the All variant — approve.test.ts:131-162. -/
def approve_4 : List Act := [
    .ok (create (args (k 2) (owner := some (k 3)) (payer := some identity)
      (name := txt "Digital Asset"))),
    .ok (call (.approve (k 2) (some (k 3)) (k 4) .all)),
    .shows (k 2) (obj (delegate := some (some ((k 4), (some [.transfer, .lock, .burn])))))]

theorem approve_4_passes : passes approve_4 = true := by decide +kernel

/-- an owner can revoke a delegate — revoke.test.ts:14-59. -/
def revoke_1 : List Act := [
    .ok (create (args (k 2) (owner := some (k 3)) (payer := some identity)
      (name := txt "Digital Asset"))),
    .ok (call (.approve (k 2) (some (k 3)) (k 4) (.some [.transfer]))),
    .shows (k 2) (obj (delegate := some (some ((k 4), none)))),
    .ok (call (.revoke (k 2) (some (k 3)) (.some [.transfer]))),
    .shows (k 2) (obj (delegate := some none))]

theorem revoke_1_passes : passes revoke_1 = true := by decide +kernel

/-- a delegate can revoke itself — revoke.test.ts:61-106. -/
def revoke_2 : List Act := [
    .ok (create (args (k 2) (owner := some (k 3)) (payer := some identity)
      (name := txt "Digital Asset"))),
    .ok (call (.approve (k 2) (some (k 3)) (k 4) (.some [.transfer]))),
    .shows (k 2) (obj (delegate := some (some ((k 4), none)))),
    .ok (call (.revoke (k 2) (some (k 4)) (.some [.transfer]))),
    .shows (k 2) (obj (delegate := some none))]

theorem revoke_2_passes : passes revoke_2 = true := by decide +kernel

/-- a random signer cannot revoke the delegate — revoke.test.ts:108-160. -/
def revoke_3 : List Act := [
    .ok (create (args (k 2) (owner := some (k 3)) (payer := some identity)
      (name := txt "Digital Asset"))),
    .ok (call (.approve (k 2) (some (k 3)) (k 4) (.some [.transfer]))),
    .shows (k 2) (obj (delegate := some (some ((k 4), none)))),
    .fails (call (.revoke (k 2) (some (k 5)) (.some [.transfer]))) "Invalid authority",
    .shows (k 2) (obj (delegate := some (some ((k 4), (some [.transfer])))))]

theorem revoke_3_passes : passes revoke_3 = true := by decide +kernel

/-- revoking with the "All" variant revokes all active roles — revoke.test.ts:162-205. -/
def revoke_4 : List Act := [
    .ok (create (args (k 2) (owner := some (k 3)) (payer := some identity)
      (name := txt "Digital Asset"))),
    .ok (call (.approve (k 2) (some (k 3)) (k 4) (.some [.transfer, .burn, .lock]))),
    .shows (k 2) (obj (delegate := some (some ((k 4), none)))),
    .ok (call (.revoke (k 2) (some (k 4)) .all)),
    .shows (k 2) (obj (delegate := some none))]

theorem revoke_4_passes : passes revoke_4 = true := by decide +kernel

/-- it can lock an asset as an owner — lock.test.ts:16-41. -/
def lock_1 : List Act := [
    .ok (create (args (k 2) (owner := some (k 3)) (payer := some identity)
      (name := txt "Digital Asset"))),
    .ok (call (.lock (k 2) (some (k 3)))),
    .shows (k 2) (obj (state := some 1))]

theorem lock_1_passes : passes lock_1 = true := by decide +kernel

/-- it can lock an asset with a delegate — lock.test.ts:43-79. -/
def lock_2 : List Act := [
    .ok (create (args (k 2) (owner := some (k 3)) (payer := some identity)
      (name := txt "Digital Asset"))),
    .ok (call (.approve (k 2) (some (k 3)) (k 4) (.some [.lock]))),
    .ok (call (.lock (k 2) (some (k 4)))),
    .shows (k 2) (obj (state := some 1))]

theorem lock_2_passes : passes lock_2 = true := by decide +kernel

/-- it cannot transfer a locked asset — lock.test.ts:81-122. -/
def lock_3 : List Act := [
    .ok (create (args (k 2) (owner := some (k 3)) (payer := some identity)
      (name := txt "Digital Asset"))),
    .ok (call (.approve (k 2) (some (k 3)) (k 4) (.some [.lock]))),
    .ok (call (.lock (k 2) (some (k 4)))),
    .fails (call (.transfer (k 2) (some (k 3)) (k 5) none)) "Asset is locked"]

theorem lock_3_passes : passes lock_3 = true := by decide +kernel

/-- it cannot lock an asset without "Lock" role — lock.test.ts:124-157. -/
def lock_4 : List Act := [
    .ok (create (args (k 2) (owner := some (k 3)) (payer := some identity)
      (name := txt "Digital Asset"))),
    .ok (call (.approve (k 2) (some (k 3)) (k 4) (.some [.transfer]))),
    .fails (call (.lock (k 2) (some (k 4)))) "Delegate role not active"]

theorem lock_4_passes : passes lock_4 = true := by decide +kernel

/-- it cannot lock as an owner if delegate set — lock.test.ts:159-192. -/
def lock_5 : List Act := [
    .ok (create (args (k 2) (owner := some (k 3)) (payer := some identity)
      (name := txt "Digital Asset"))),
    .ok (call (.approve (k 2) (some (k 3)) (k 4) (.some [.lock, .transfer]))),
    .fails (call (.lock (k 2) (some (k 3)))) "Invalid delegate"]

theorem lock_5_passes : passes lock_5 = true := by decide +kernel

/-- it can unlock an asset — unlock.test.ts:16-63. -/
def unlock_1 : List Act := [
    .ok (create (args (k 2) (owner := some (k 3)) (payer := some identity)
      (name := txt "Digital Asset"))),
    .ok (call (.approve (k 2) (some (k 3)) (k 4) (.some [.lock]))),
    .ok (call (.lock (k 2) (some (k 4)))),
    .shows (k 2) (obj (state := some 1)),
    .ok (call (.unlock (k 2) (some (k 4)))),
    .shows (k 2) (obj (state := some 0))]

theorem unlock_1_passes : passes unlock_1 = true := by decide +kernel

/-- it cannot unlock an asset with an invalid delegate — unlock.test.ts:65-116. -/
def unlock_2 : List Act := [
    .ok (create (args (k 2) (owner := some (k 3)) (payer := some identity)
      (name := txt "Digital Asset"))),
    .ok (call (.approve (k 2) (some (k 3)) (k 4) (.some [.lock]))),
    .ok (call (.lock (k 2) (some (k 4)))),
    .shows (k 2) (obj (state := some 1)),
    .fails (call (.unlock (k 2) (some (k 5)))) "Invalid delegate",
    .shows (k 2) (obj (state := some 1))]

theorem unlock_2_passes : passes unlock_2 = true := by decide +kernel

/-- it cannot unlock an asset locked with a delegate as an owner — unlock.test.ts:118-168. -/
def unlock_3 : List Act := [
    .ok (create (args (k 2) (owner := some (k 3)) (payer := some identity)
      (name := txt "Digital Asset"))),
    .ok (call (.approve (k 2) (some (k 3)) (k 4) (.some [.lock]))),
    .ok (call (.lock (k 2) (some (k 4)))),
    .shows (k 2) (obj (state := some 1)),
    .fails (call (.unlock (k 2) (some (k 3)))) "Invalid delegate",
    .shows (k 2) (obj (state := some 1))]

theorem unlock_3_passes : passes unlock_3 = true := by decide +kernel

/-- it can unlock an asset as an owner — unlock.test.ts:170-206. -/
def unlock_4 : List Act := [
    .ok (create (args (k 2) (owner := some (k 3)) (payer := some identity)
      (name := txt "Digital Asset"))),
    .ok (call (.lock (k 2) (some (k 3)))),
    .shows (k 2) (obj (state := some 1)),
    .ok (call (.unlock (k 2) (some (k 3)))),
    .shows (k 2) (obj (state := some 0))]

theorem unlock_4_passes : passes unlock_4 = true := by decide +kernel

/-- it can unlock an asset that is unlocked — unlock.test.ts:208-244. -/
def unlock_5 : List Act := [
    .ok (create (args (k 2) (owner := some (k 3)) (payer := some identity)
      (name := txt "Digital Asset"))),
    .ok (call (.approve (k 2) (some (k 3)) (k 4) (.some [.lock]))),
    .ok (call (.unlock (k 2) (some (k 4)))),
    .shows (k 2) (obj (state := some 0))]

theorem unlock_5_passes : passes unlock_5 = true := by decide +kernel

/-- it can transfer an asset as an owner — transfer.test.ts:17-46. -/
def transfer_1 : List Act := [
    .ok (create (args (k 2) (owner := some (k 3)) (payer := some identity)
      (name := txt "Digital Asset"))),
    .shows (k 2) (obj (owner := some (k 3))),
    .ok (call (.transfer (k 2) (some (k 3)) (k 4) none)),
    .shows (k 2) (obj (owner := some (k 4)))]

theorem transfer_1_passes : passes transfer_1 = true := by decide +kernel

/-- it can transfer an asset as a delegate — transfer.test.ts:48-88. -/
def transfer_2 : List Act := [
    .ok (create (args (k 2) (owner := some (k 3)) (payer := some identity)
      (name := txt "Digital Asset"))),
    .shows (k 2) (obj (owner := some (k 3))),
    .ok (call (.approve (k 2) (some (k 3)) (k 4) (.some [.transfer]))),
    .ok (call (.transfer (k 2) (some (k 4)) (k 5) none)),
    .shows (k 2) (obj (owner := some (k 5)))]

theorem transfer_2_passes : passes transfer_2 = true := by decide +kernel

/-- invalid signer cannot transfer — transfer.test.ts:90-121. -/
def transfer_3 : List Act := [
    .ok (create (args (k 2) (owner := some (k 3)) (payer := some identity)
      (name := txt "Digital Asset"))),
    .shows (k 2) (obj (owner := some (k 3))),
    .fails (call (.transfer (k 2) (some (k 4)) (k 5) none)) "Invalid owner or transfer delegate"]

theorem transfer_3_passes : passes transfer_3 = true := by decide +kernel

/-- owner transfer clears delegate — transfer.test.ts:123-166. -/
def transfer_4 : List Act := [
    .ok (create (args (k 2) (owner := some (k 3)) (payer := some identity)
      (name := txt "Digital Asset"))),
    .shows (k 2) (obj (owner := some (k 3))),
    .ok (call (.approve (k 2) (some (k 3)) (k 4) (.some [.burn, .transfer]))),
    .ok (call (.transfer (k 2) (some (k 3)) (k 5) none)),
    .shows (k 2) (obj (owner := some (k 5))),
    .shows (k 2) (obj (delegate := some none))]

theorem transfer_4_passes : passes transfer_4 = true := by decide +kernel

/-- delegate transfer clears delegate — transfer.test.ts:168-211. -/
def transfer_5 : List Act := [
    .ok (create (args (k 2) (owner := some (k 3)) (payer := some identity)
      (name := txt "Digital Asset"))),
    .shows (k 2) (obj (owner := some (k 3))),
    .ok (call (.approve (k 2) (some (k 3)) (k 4) (.some [.lock, .transfer]))),
    .ok (call (.transfer (k 2) (some (k 4)) (k 5) none)),
    .shows (k 2) (obj (owner := some (k 5))),
    .shows (k 2) (obj (delegate := some none))]

theorem transfer_5_passes : passes transfer_5 = true := by decide +kernel

/-- self-transfer does not clear delegate — transfer.test.ts:213-256. -/
def transfer_6 : List Act := [
    .ok (create (args (k 2) (owner := some (k 3)) (payer := some identity)
      (name := txt "Digital Asset"))),
    .shows (k 2) (obj (owner := some (k 3))),
    .ok (call (.approve (k 2) (some (k 3)) (k 4) (.some [.burn]))),
    .ok (call (.transfer (k 2) (some (k 3)) (k 3) none)),
    .shows (k 2) (obj (owner := some (k 3)) (delegate := some (some ((k 4), none))))]

theorem transfer_6_passes : passes transfer_6 = true := by decide +kernel

/-- it cannot transfer a soulbound asset — transfer.test.ts:258-289. -/
def transfer_7 : List Act := [
    .ok (create (args (k 2) (owner := some (k 3)) (payer := some identity)
      (name := txt "Soulbound Asset") (standard := some .soulbound))),
    .shows (k 2) (obj (owner := some (k 3))),
    .fails (call (.transfer (k 2) (some (k 3)) (k 4)
      none)) "Soulbound assets are non-transferable"]

theorem transfer_7_passes : passes transfer_7 = true := by decide +kernel

/-- it can transfer an asset as a manager delegate — transfer.test.ts:291-323. -/
def transfer_8 : List Act := [
    .ok (mint (args (k 2) (owner := some (k 3)) (payer := some identity)
      (name := txt "Managed Asset") (standard := some .managed) (extensions := [(.manager
      (some (k 4)) [.transfer])]))),
    .shows (k 2) (obj (owner := some (k 3))),
    .ok (call (.transfer (k 2) (some (k 4)) (k 5) none)),
    .shows (k 2) (obj (owner := some (k 5)))]

theorem transfer_8_passes : passes transfer_8 = true := by decide +kernel

/-- it cannot transfer an asset with the wrong manager delegate — transfer.test.ts:325-358. -/
def transfer_9 : List Act := [
    .ok (mint (args (k 2) (owner := some (k 3)) (payer := some identity)
      (name := txt "Managed Asset") (standard := some .managed) (extensions := [(.manager
      (some (k 4)) [.transfer])]))),
    .shows (k 2) (obj (owner := some (k 3))),
    .fails (call (.transfer (k 2) (some identity) (k 5)
      none)) "Invalid owner or transfer delegate"]

theorem transfer_9_passes : passes transfer_9 = true := by decide +kernel

/-- it can handover an asset to a new authority — handover.test.ts:6-37. -/
def handover_1 : List Act := [
    .ok (create (args (k 2) (authority := some ((k 3), true)) (owner := some identity)
      (payer := some identity) (name := txt "Digital Asset"))),
    .shows (k 2) (obj (authority := some (k 3))),
    .ok (call (.handover (k 2) (some (k 3)) (k 4))),
    .shows (k 2) (obj (authority := some (k 4)))]

theorem handover_1_passes : passes handover_1 = true := by decide +kernel

/-- it cannot handover an asset with the wrong authority — handover.test.ts:39-69. -/
def handover_2 : List Act := [
    .ok (create (args (k 2) (authority := some (identity, true)) (owner := some identity)
      (payer := some identity) (name := txt "Digital Asset"))),
    .shows (k 2) (obj (authority := some identity)),
    .fails (call (.handover (k 2) (some (k 3)) (k 4))) "Invalid authority"]

theorem handover_2_passes : passes handover_2 = true := by decide +kernel

/-- The tests of this file. -/
def jsDelegateTests : List (List Act) :=
  [approve_1, approve_2, approve_3, approve_4, revoke_1, revoke_2, revoke_3, revoke_4, lock_1,
   lock_2, lock_3, lock_4, lock_5, unlock_1, unlock_2, unlock_3, unlock_4, unlock_5, transfer_1,
   transfer_2, transfer_3, transfer_4, transfer_5, transfer_6, transfer_7, transfer_8,
   transfer_9, handover_1, handover_2]

theorem jsDelegateTests_pass : AllPass jsDelegateTests :=
  .cons approve_1_passes <| .cons approve_2_passes <| .cons approve_3_passes <|
  .cons approve_4_passes <| .cons revoke_1_passes <| .cons revoke_2_passes <|
  .cons revoke_3_passes <| .cons revoke_4_passes <| .cons lock_1_passes <| .cons lock_2_passes <|
  .cons lock_3_passes <| .cons lock_4_passes <| .cons lock_5_passes <| .cons unlock_1_passes <|
  .cons unlock_2_passes <| .cons unlock_3_passes <| .cons unlock_4_passes <|
  .cons unlock_5_passes <| .cons transfer_1_passes <| .cons transfer_2_passes <|
  .cons transfer_3_passes <| .cons transfer_4_passes <| .cons transfer_5_passes <|
  .cons transfer_6_passes <| .cons transfer_7_passes <| .cons transfer_8_passes <|
  .cons transfer_9_passes <| .cons handover_1_passes <| .cons handover_2_passes <| .nil

end Verif.Tests
