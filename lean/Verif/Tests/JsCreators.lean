import Verif.Tests.Base

/-!
# Tests of the JavaScript client: creators

clients/js/asset/test/: verify.test.ts, unverify.test.ts, extensions/creators.test.ts, act by act. The image a test
downloads is replaced by one of 900 bytes, which needs more than one Write. Key `k n` is the `n`-th
signer of a test, from `k 100` on the addresses written out in it.
-/

namespace Verif.Tests

open Verif Verif.Ex

/-- it can verify a creator — verify.test.ts:15-73. -/
def verify_1 : List Act := [
    .ok (init (k 2) (some identity) (.creators [⟨(k 4), false, 100⟩])),
    .ok (create (args (k 2) (owner := some (k 3)) (name := txt "Asset with creators"))),
    .shows (k 2) (obj (extensions := some [(.creators [((k 4), (some false), 100)])])),
    .ok (call (.verify (k 2) (k 4))),
    .shows (k 2) (obj (extensions := some [(.creators [((k 4), (some true), 100)])]))]

theorem verify_1_passes : passes verify_1 = true := by decide +kernel

/-- it can verify multiple creators — verify.test.ts:75-176. -/
def verify_2 : List Act := [
    .ok (init (k 2) (some identity) (.creators [⟨(k 4), false, 50⟩, ⟨(k 5), false, 50⟩])),
    .ok (create (args (k 2) (owner := some (k 3)) (name := txt "Asset with creators"))),
    .shows (k 2) (obj (extensions := some [(.creators [((k 4), (some false), 50), ((k 5),
      (some false), 50)])])),
    .ok (call (.verify (k 2) (k 4))),
    .shows (k 2) (obj (extensions := some [(.creators [((k 4), (some true), 50), ((k 5),
      (some false), 50)])])),
    .ok (call (.verify (k 2) (k 5))),
    .shows (k 2) (obj (extensions := some [(.creators [((k 4), (some true), 50), ((k 5),
      (some true), 50)])]))]

theorem verify_2_passes : passes verify_2 = true := by decide +kernel

/-- it cannot verify a wrong creator — verify.test.ts:178-241. -/
def verify_3 : List Act := [
    .ok (init (k 2) (some identity) (.creators [⟨(k 4), false, 100⟩])),
    .ok (create (args (k 2) (owner := some (k 3)) (name := txt "Asset with creators"))),
    .shows (k 2) (obj (extensions := some [(.creators [((k 4), (some false), 100)])])),
    .fails (call (.verify (k 2) (k 5))) "invalid program argument",
    .shows (k 2) (obj (extensions := some [(.creators [((k 4), (some false), 100)])]))]

theorem verify_3_passes : passes verify_3 = true := by decide +kernel

/-- it cannot verify a creator without creators extension — verify.test.ts:243-271. -/
def verify_4 : List Act := [
    .ok (create (args (k 2) (owner := some (k 3)) (payer := some identity)
      (name := txt "Asset with creators"))),
    .shows (k 2) (obj (extensions := some [])),
    .fails (call (.verify (k 2) (k 4))) "Extension not found"]

theorem verify_4_passes : passes verify_4 = true := by decide +kernel

/-- it can unverify a creator — unverify.test.ts:16-79. -/
def unverify_1 : List Act := [
    .ok (init (k 2) (some identity) (.creators [⟨identity, false, 100⟩])),
    .ok (create (args (k 2) (owner := some (k 3)) (name := txt "Asset with creators"))),
    .ok (call (.verify (k 2) identity)),
    .shows (k 2) (obj (extensions := some [(.creators [(identity, (some true), 100)])])),
    .ok (call (.unverify (k 2) identity)),
    .shows (k 2) (obj (extensions := some [(.creators [(identity, (some false), 100)])]))]

theorem unverify_1_passes : passes unverify_1 = true := by decide +kernel

/-- it can unverify multiple creators — unverify.test.ts:81-180. -/
def unverify_2 : List Act := [
    .ok (init (k 2) (some identity) (.creators [⟨(k 4), false, 50⟩, ⟨(k 5), false, 50⟩])),
    .ok (create (args (k 2) (owner := some (k 3)) (name := txt "Asset with creators"))),
    .ok (joined [(call (.verify (k 2) (k 4))), (call (.verify (k 2) (k 5)))]),
    .shows (k 2) (obj (extensions := some [(.creators [((k 4), (some true), 50), ((k 5),
      (some true), 50)])])),
    .ok (joined [(call (.unverify (k 2) (k 4))), (call (.unverify (k 2) (k 5)))]),
    .shows (k 2) (obj (extensions := some [(.creators [((k 4), (some false), 50), ((k 5),
      (some false), 50)])]))]

theorem unverify_2_passes : passes unverify_2 = true := by decide +kernel

/-- it cannot unverify a wrong creator — unverify.test.ts:182-249. -/
def unverify_3 : List Act := [
    .ok (init (k 2) (some identity) (.creators [⟨identity, false, 100⟩])),
    .ok (create (args (k 2) (owner := some (k 3)) (name := txt "Asset with creators"))),
    .ok (call (.verify (k 2) identity)),
    .shows (k 2) (obj (extensions := some [(.creators [(identity, (some true), 100)])])),
    .fails (call (.unverify (k 2) (k 4))) "invalid program argument",
    .shows (k 2) (obj (extensions := some [(.creators [(identity, (some true), 100)])]))]

theorem unverify_3_passes : passes unverify_3 = true := by decide +kernel

/-- it cannot unverify a creator without creators extension — unverify.test.ts:251-279. -/
def unverify_4 : List Act := [
    .ok (create (args (k 2) (owner := some (k 3)) (payer := some identity)
      (name := txt "Asset with creators"))),
    .shows (k 2) (obj (extensions := some [])),
    .fails (call (.unverify (k 2) (k 4))) "Extension not found"]

theorem unverify_4_passes : passes unverify_4 = true := by decide +kernel

/-- it can create a new asset with a creator — extensions/creators.test.ts:18-62. -/
def creators_1 : List Act := [
    .ok (init (k 2) (some identity) (.creators [⟨(k 4), false, 100⟩])),
    .present (k 2),
    .ok (create (args (k 2) (owner := some (k 3)) (name := txt "Asset with creators"))),
    .shows (k 2) (obj (state := some 0) (standard := some .nonFungible) (owner := some (k 3))
      (authority := some identity) (extensions := some [(.creators [((k 4), (some false),
      100)])]))]

theorem creators_1_passes : passes creators_1 = true := by decide +kernel

/-- it can create a new asset with the authority as a verified creator — extensions/creators.test.ts:64-109. -/
def creators_2 : List Act := [
    .ok (init (k 2) (some identity) (.creators [⟨identity, false, 100⟩])),
    .present (k 2),
    .ok (create (args (k 2) (authority := some (identity, true)) (owner := some (k 3))
      (name := txt "Asset with creators"))),
    .shows (k 2) (obj (state := some 0) (standard := some .nonFungible) (owner := some (k 3))
      (authority := some identity) (extensions := some [(.creators [(identity, (some true),
      100)])]))]

theorem creators_2_passes : passes creators_2 = true := by decide +kernel

/-- it can create a new asset with multiple creators — extensions/creators.test.ts:111-158. -/
def creators_3 : List Act := [
    .ok (init (k 2) (some identity) (.creators [⟨(k 4), false, 10⟩, ⟨(k 5), false, 10⟩, ⟨(k 6),
      false, 10⟩, ⟨(k 7), false, 10⟩, ⟨(k 8), false, 10⟩, ⟨(k 9), false, 10⟩, ⟨(k 10), false, 10⟩,
      ⟨(k 11), false, 10⟩, ⟨(k 12), false, 10⟩, ⟨(k 13), false, 10⟩])),
    .present (k 2),
    .ok (create (args (k 2) (owner := some (k 3)) (name := txt "Asset with creators"))),
    .shows (k 2) (obj (state := some 0) (standard := some .nonFungible) (owner := some (k 3))
      (authority := some identity) (extensions := some [(.creators [((k 4), (some false), 10),
      ((k 5), (some false), 10), ((k 6), (some false), 10), ((k 7), (some false), 10), ((k 8),
      (some false), 10), ((k 9), (some false), 10), ((k 10), (some false), 10), ((k 11),
      (some false), 10), ((k 12), (some false), 10), ((k 13), (some false), 10)])]))]

theorem creators_3_passes : passes creators_3 = true := by decide +kernel

/-- it cannot create an asset with invalid creators' total share — extensions/creators.test.ts:160-185. -/
def creators_4 : List Act := [
    .ok (init (k 2) (some identity) (.creators [⟨(k 3), false, 10⟩, ⟨(k 4), false, 10⟩, ⟨(k 5),
      false, 10⟩, ⟨(k 6), false, 10⟩, ⟨(k 7), false, 10⟩, ⟨(k 8), false, 10⟩, ⟨(k 9), false, 10⟩,
      ⟨(k 10), false, 10⟩, ⟨(k 11), false, 10⟩])),
    .fails (create (args (k 2) (payer := some identity)
      (name := txt "Asset with creators"))) "Extension data invalid"]

theorem creators_4_passes : passes creators_4 = true := by decide +kernel

/-- it maintain a creator verified status on update — extensions/creators.test.ts:187-292. -/
def creators_5 : List Act := [
    .ok (init (k 2) (some identity) (.creators [⟨(k 4), false, 50⟩, ⟨(k 5), false, 50⟩])),
    .ok (create (args (k 2) (owner := some (k 3)) (name := txt "Asset with creators"))),
    .shows (k 2) (obj (extensions := some [(.creators [((k 4), (some false), 50), ((k 5),
      (some false), 50)])])),
    .ok (call (.verify (k 2) (k 4))),
    .shows (k 2) (obj (extensions := some [(.creators [((k 4), (some true), 50), ((k 5),
      (some false), 50)])])),
    .ok (update (k 2) (payer := some identity) (extension := some (.creators [⟨(k 4), false, 50⟩,
      ⟨(k 6), false, 50⟩]))),
    .shows (k 2) (obj (extensions := some [(.creators [((k 4), (some true), 50), ((k 6),
      (some false), 50)])]))]

theorem creators_5_passes : passes creators_5 = true := by decide +kernel

/-- it cannot remove a verified creator on update — extensions/creators.test.ts:294-356. -/
def creators_6 : List Act := [
    .ok (init (k 2) (some identity) (.creators [⟨(k 4), false, 50⟩, ⟨(k 5), false, 50⟩])),
    .ok (create (args (k 2) (owner := some (k 3)) (name := txt "Asset with creators"))),
    .ok (call (.verify (k 2) (k 4))),
    .shows (k 2) (obj (extensions := some [(.creators [((k 4), (some true), 50), ((k 5),
      (some false), 50)])])),
    .fails (update (k 2) (payer := some identity) (extension := some (.creators [⟨(k 5), false,
      100⟩]))) "Extension data invalid"]

theorem creators_6_passes : passes creators_6 = true := by decide +kernel

/-- it can remove an unverified creator on update — extensions/creators.test.ts:358-427. -/
def creators_7 : List Act := [
    .ok (init (k 2) (some identity) (.creators [⟨(k 4), false, 50⟩, ⟨(k 5), false, 50⟩])),
    .ok (create (args (k 2) (owner := some (k 3)) (name := txt "Asset with creators"))),
    .shows (k 2) (obj (extensions := some [(.creators [((k 4), (some false), 50), ((k 5),
      (some false), 50)])])),
    .ok (update (k 2) (payer := some identity) (extension := some (.creators [⟨(k 5), false,
      100⟩]))),
    .shows (k 2) (obj (extensions := some [(.creators [((k 5), (some false), 100)])]))]

theorem creators_7_passes : passes creators_7 = true := by decide +kernel

/-- it cannot update creators with invalid total share — extensions/creators.test.ts:429-485. -/
def creators_8 : List Act := [
    .ok (init (k 2) (some identity) (.creators [⟨(k 4), false, 50⟩, ⟨(k 5), false, 50⟩])),
    .ok (create (args (k 2) (owner := some (k 3)) (name := txt "Asset with creators"))),
    .shows (k 2) (obj (extensions := some [(.creators [((k 4), (some false), 50), ((k 5),
      (some false), 50)])])),
    .fails (update (k 2) (payer := some identity) (extension := some (.creators [⟨(k 5), false,
      90⟩]))) "Extension data invalid"]

theorem creators_8_passes : passes creators_8 = true := by decide +kernel

/-- The tests of this file. -/
def jsCreatorsTests : List (List Act) :=
  [verify_1, verify_2, verify_3, verify_4, unverify_1, unverify_2, unverify_3, unverify_4,
   creators_1, creators_2, creators_3, creators_4, creators_5, creators_6, creators_7,
   creators_8]

theorem jsCreatorsTests_pass : AllPass jsCreatorsTests :=
  .cons verify_1_passes <| .cons verify_2_passes <| .cons verify_3_passes <|
  .cons verify_4_passes <| .cons unverify_1_passes <| .cons unverify_2_passes <|
  .cons unverify_3_passes <| .cons unverify_4_passes <| .cons creators_1_passes <|
  .cons creators_2_passes <| .cons creators_3_passes <| .cons creators_4_passes <|
  .cons creators_5_passes <| .cons creators_6_passes <| .cons creators_7_passes <|
  .cons creators_8_passes <| .nil

end Verif.Tests
