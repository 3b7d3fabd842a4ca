import Verif.Tests.Base

/-!
# Tests of the JavaScript client: groups

clients/js/asset/test/: group.test.ts, ungroup.test.ts, extensions/grouping.test.ts, act by act. The image a test
downloads is replaced by one of 900 bytes, which needs more than one Write. Key `k n` is the `n`-th
signer of a test, from `k 100` on the addresses written out in it.
-/

namespace Verif.Tests

open Verif Verif.Ex

/-- it can group an asset — group.test.ts:13-67. -/
def group_1 : List Act := [
    .ok (mint (args (k 2) (payer := some identity) (name := txt "Group")
      (extensions := [(.grouping 0 10 none)]))),
    .shows (k 2) (obj (group := some none) (extensions := some [(.grouping (some 0) (some 10)
      none)])),
    .ok (mint (args (k 3) (payer := some identity) (name := txt "Asset"))),
    .ok (call (.group (k 3) (k 2) none)),
    .shows (k 3) (obj (group := some (some (k 2)))),
    .shows (k 2) (obj (group := some none) (extensions := some [(.grouping (some 1) (some 10)
      none)]))]

theorem group_1_passes : passes group_1 = true := by decide +kernel

/-- it cannot exceed max group size — group.test.ts:69-179. -/
def group_2 : List Act := [
    .ok (mint (args (k 2) (payer := some identity) (name := txt "Group")
      (extensions := [(.grouping 0 2 none)]))),
    .shows (k 2) (obj (group := some none) (extensions := some [(.grouping (some 0) (some 2)
      none)])),
    .ok (mint (args (k 3) (payer := some identity) (name := txt "Asset"))),
    .ok (call (.group (k 3) (k 2) none)),
    .shows (k 3) (obj (group := some (some (k 2)))),
    .shows (k 2) (obj (group := some none) (extensions := some [(.grouping (some 1) (some 2)
      none)])),
    .ok (mint (args (k 4) (payer := some identity) (name := txt "Asset"))),
    .ok (call (.group (k 4) (k 2) none)),
    .shows (k 4) (obj (group := some (some (k 2)))),
    .shows (k 2) (obj (group := some none) (extensions := some [(.grouping (some 2) (some 2)
      none)])),
    .ok (mint (args (k 5) (payer := some identity) (name := txt "Asset"))),
    .fails (call (.group (k 5) (k 2) none)) "Maximum group size reached",
    .shows (k 2) (obj (group := some none) (extensions := some [(.grouping (some 2) (some 2)
      none)]))]

theorem group_2_passes : passes group_2 = true := by decide +kernel

/-- it cannot replace the group of an asset — group.test.ts:181-244. -/
def group_3 : List Act := [
    .ok (mint (args (k 2) (payer := some identity) (name := txt "Group")
      (extensions := [(.grouping 0 10 none)]))),
    .shows (k 2) (obj (group := some none) (extensions := some [(.grouping (some 0) (some 10)
      none)])),
    .ok (mint (args (k 3) (payer := some identity) (name := txt "Asset"))),
    .ok (call (.group (k 3) (k 2) none)),
    .ok (mint (args (k 4) (payer := some identity) (name := txt "Group")
      (extensions := [(.grouping 0 10 none)]))),
    .fails (call (.group (k 3) (k 4) none)) "Asset is already in a group",
    .shows (k 3) (obj (group := some (some (k 2))))]

theorem group_3_passes : passes group_3 = true := by decide +kernel

/-- it can be grouped using a group delegate — group.test.ts:246-282. -/
def group_4 : List Act := [
    .ok (mint (args (k 4) (authority := some ((k 3), false)) (payer := some identity)
      (name := txt "Group") (extensions := [(.grouping 0 10 (some (k 2)))]))),
    .ok (mint (args (k 5) (authority := some ((k 3), false)) (payer := some identity)
      (name := txt "Asset"))),
    .ok (call (.group (k 5) (k 4) (some (k 2)))),
    .shows (k 5) (obj (group := some (some (k 4))))]

theorem group_4_passes : passes group_4 = true := by decide +kernel

/-- it can ungroup an asset — ungroup.test.ts:13-83. -/
def ungroup_1 : List Act := [
    .ok (mint (args (k 2) (payer := some identity) (name := txt "Group")
      (extensions := [(.grouping 0 10 none)]))),
    .shows (k 2) (obj (group := some none) (extensions := some [(.grouping (some 0) (some 10)
      none)])),
    .ok (mint (args (k 3) (group := some (k 2)) (payer := some identity) (name := txt "Asset"))),
    .shows (k 3) (obj (group := some (some (k 2)))),
    .shows (k 2) (obj (group := some none) (extensions := some [(.grouping (some 1) (some 10)
      none)])),
    .ok (call (.ungroup (k 3) (k 2) none)),
    .shows (k 3) (obj (group := some none)),
    .shows (k 2) (obj (group := some none) (extensions := some [(.grouping (some 0) (some 10)
      none)]))]

theorem ungroup_1_passes : passes ungroup_1 = true := by decide +kernel

/-- It can ungroup an asset as a group delegate — ungroup.test.ts:85-166. -/
def ungroup_2 : List Act := [
    .ok (mint (args (k 4) (authority := some ((k 3), true)) (payer := some identity)
      (name := txt "Group") (extensions := [(.grouping 0 10 (some (k 2)))]))),
    .shows (k 4) (obj (group := some none) (authority := some (k 3))
      (extensions := some [(.grouping (some 0) (some 10) (some (some (k 2))))])),
    .ok (mint (args (k 5) (authority := some ((k 3), true)) (group := some (k 4))
      (payer := some identity) (name := txt "Asset"))),
    .shows (k 5) (obj (group := some (some (k 4)))),
    .shows (k 4) (obj (group := some none) (authority := some (k 3))
      (extensions := some [(.grouping (some 1) (some 10) (some (some (k 2))))])),
    .ok (call (.ungroup (k 5) (k 4) (some (k 2)))),
    .shows (k 5) (obj (group := some none)),
    .shows (k 4) (obj (group := some none) (extensions := some [(.grouping (some 0) (some 10)
      (some (some (k 2))))]))]

theorem ungroup_2_passes : passes ungroup_2 = true := by decide +kernel

/-- it can create a new group asset with a maximum size — extensions/grouping.test.ts:20-58. -/
def grouping_1 : List Act := [
    .ok (init (k 2) (some identity) (.grouping 0 10 none)),
    .present (k 2),
    .ok (create (args (k 2) (owner := some (k 3)) (name := txt "Group Asset"))),
    .shows (k 2) (obj (state := some 0) (standard := some .nonFungible) (owner := some (k 3))
      (authority := some identity) (extensions := some [(.grouping (some 0) (some 10) none)]))]

theorem grouping_1_passes : passes grouping_1 = true := by decide +kernel

/-- it can create a new group asset of unlimited size — extensions/grouping.test.ts:60-98. -/
def grouping_2 : List Act := [
    .ok (init (k 2) (some identity) (.grouping 0 0 none)),
    .present (k 2),
    .ok (create (args (k 2) (owner := some (k 3)) (name := txt "Group Asset"))),
    .shows (k 2) (obj (state := some 0) (standard := some .nonFungible) (owner := some (k 3))
      (authority := some identity) (extensions := some [(.grouping (some 0) (some 0) none)]))]

theorem grouping_2_passes : passes grouping_2 = true := by decide +kernel

/-- it can update the maximum size of an existing group — extensions/grouping.test.ts:100-168. -/
def grouping_3 : List Act := [
    .ok (mint (args (k 2) (payer := some identity) (name := txt "Group")
      (extensions := [(.grouping 0 10 none)]))),
    .shows (k 2) (obj (group := some none) (extensions := some [(.grouping (some 0) (some 10)
      none)])),
    .ok (mint (args (k 3) (payer := some identity) (name := txt "Asset"))),
    .ok (call (.group (k 3) (k 2) none)),
    .shows (k 2) (obj (group := some none) (extensions := some [(.grouping (some 1) (some 10)
      none)])),
    .ok (update (k 2) (payer := some identity) (extension := some (.grouping 0 1 none))),
    .shows (k 2) (obj (group := some none) (extensions := some [(.grouping (some 1) (some 1)
      none)]))]

theorem grouping_3_passes : passes grouping_3 = true := by decide +kernel

/-- it cannot reduce the size of a group — extensions/grouping.test.ts:170-233. -/
def grouping_4 : List Act := [
    .ok (mint (args (k 2) (payer := some identity) (name := txt "Group")
      (extensions := [(.grouping 0 10 none)]))),
    .shows (k 2) (obj (group := some none) (extensions := some [(.grouping (some 0) (some 10)
      none)])),
    .ok (joined [(mint (args (k 3) (group := some (k 2)) (payer := some identity)
      (name := txt "Asset"))), (mint (args (k 4) (group := some (k 2)) (payer := some identity)
      (name := txt "Asset"))), (mint (args (k 5) (group := some (k 2)) (payer := some identity)
      (name := txt "Asset"))), (mint (args (k 6) (group := some (k 2)) (payer := some identity)
      (name := txt "Asset"))), (mint (args (k 7) (group := some (k 2)) (payer := some identity)
      (name := txt "Asset")))]),
    .shows (k 2) (obj (group := some none) (extensions := some [(.grouping (some 5) (some 10)
      none)])),
    .fails (update (k 2) (payer := some identity) (extension := some (.grouping 0 4
      none))) "Extension data invalid"]

theorem grouping_4_passes : passes grouping_4 = true := by decide +kernel

/-- it can update the size of a group to unlimited — extensions/grouping.test.ts:235-305. -/
def grouping_5 : List Act := [
    .ok (mint (args (k 2) (payer := some identity) (name := txt "Group")
      (extensions := [(.grouping 0 10 none)]))),
    .shows (k 2) (obj (group := some none) (extensions := some [(.grouping (some 0) (some 10)
      none)])),
    .ok (joined [(mint (args (k 3) (group := some (k 2)) (payer := some identity)
      (name := txt "Asset"))), (mint (args (k 4) (group := some (k 2)) (payer := some identity)
      (name := txt "Asset"))), (mint (args (k 5) (group := some (k 2)) (payer := some identity)
      (name := txt "Asset"))), (mint (args (k 6) (group := some (k 2)) (payer := some identity)
      (name := txt "Asset"))), (mint (args (k 7) (group := some (k 2)) (payer := some identity)
      (name := txt "Asset")))]),
    .shows (k 2) (obj (group := some none) (extensions := some [(.grouping (some 5) (some 10)
      none)])),
    .ok (update (k 2) (payer := some identity) (extension := some (.grouping 0 0 none))),
    .shows (k 2) (obj (group := some none) (extensions := some [(.grouping (some 5) (some 0)
      none)]))]

theorem grouping_5_passes : passes grouping_5 = true := by decide +kernel

/-- it can increase the size of a group — extensions/grouping.test.ts:307-377. -/
def grouping_6 : List Act := [
    .ok (mint (args (k 2) (payer := some identity) (name := txt "Group")
      (extensions := [(.grouping 0 10 none)]))),
    .shows (k 2) (obj (group := some none) (extensions := some [(.grouping (some 0) (some 10)
      none)])),
    .ok (joined [(mint (args (k 3) (group := some (k 2)) (payer := some identity)
      (name := txt "Asset"))), (mint (args (k 4) (group := some (k 2)) (payer := some identity)
      (name := txt "Asset"))), (mint (args (k 5) (group := some (k 2)) (payer := some identity)
      (name := txt "Asset"))), (mint (args (k 6) (group := some (k 2)) (payer := some identity)
      (name := txt "Asset"))), (mint (args (k 7) (group := some (k 2)) (payer := some identity)
      (name := txt "Asset")))]),
    .shows (k 2) (obj (group := some none) (extensions := some [(.grouping (some 5) (some 10)
      none)])),
    .ok (update (k 2) (payer := some identity) (extension := some (.grouping 0 1000 none))),
    .shows (k 2) (obj (group := some none) (extensions := some [(.grouping (some 5) (some 1000)
      none)]))]

theorem grouping_6_passes : passes grouping_6 = true := by decide +kernel

/-- it can add a delegate to the grouping on init — extensions/grouping.test.ts:379-445. -/
def grouping_7 : List Act := [
    .ok (mint (args (k 3) (payer := some identity) (name := txt "Group")
      (extensions := [(.grouping 0 10 (some (k 2)))]))),
    .shows (k 3) (obj (group := some none) (extensions := some [(.grouping (some 0) (some 10)
      (some (some (k 2))))])),
    .ok (update (k 3) (payer := some identity) (extension := some (.grouping 0 100 (some (k 2))))),
    .shows (k 3) (obj (group := some none) (extensions := some [(.grouping (some 0) (some 100)
      (some (some (k 2))))])),
    .ok (update (k 3) (payer := some identity) (extension := some (.grouping 0 100 none))),
    .shows (k 3) (obj (group := some none) (extensions := some [(.grouping (some 0) (some 100)
      (some none))]))]

theorem grouping_7_passes : passes grouping_7 = true := by decide +kernel

/-- The tests of this file. -/
def jsGroupTests : List (List Act) :=
  [group_1, group_2, group_3, group_4, ungroup_1, ungroup_2, grouping_1, grouping_2, grouping_3,
   grouping_4, grouping_5, grouping_6, grouping_7]

theorem jsGroupTests_pass : AllPass jsGroupTests :=
  .cons group_1_passes <| .cons group_2_passes <| .cons group_3_passes <| .cons group_4_passes <|
  .cons ungroup_1_passes <| .cons ungroup_2_passes <| .cons grouping_1_passes <|
  .cons grouping_2_passes <| .cons grouping_3_passes <| .cons grouping_4_passes <|
  .cons grouping_5_passes <| .cons grouping_6_passes <| .cons grouping_7_passes <| .nil

end Verif.Tests
