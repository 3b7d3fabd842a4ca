import Verif.Model.Codama

/-!
# The descriptions of the programs

The contents of idls/*.json as data: names, numbers, flags and types, without comments. Written by a
script from the files, so that nothing is retyped by hand.
-/

namespace Verif

/-! ## idls/asset-program.codama.json (one line), the description that is put into the binary -/

/-- `program.definedTypes`. -/
def codamaTypes : List (String × NodeType) :=
  [("extensionInput", .struct [("extensionType", .link "extensionType"), ("length", .num 4),
      ("data", .option 1 (.sized 4 (.bytes)))]),
    ("delegateInput", .enum 1 [("all", none), ("some", some (.struct [("roles",
      .array (.counted 4) (.link "delegateRole"))]))]),
    ("strategy", .enum 1 [("trim", none), ("extend", some (.struct [("value", .num 2)]))]),
    ("discriminator", .enum 1 [("uninitialized", none), ("asset", none)]),
    ("standard", .enum 1 [("nonFungible", none), ("managed", none), ("soulbound", none),
      ("proxied", none)]),
    ("state", .enum 1 [("unlocked", none), ("locked", none)]),
    ("delegateRole", .enum 1 [("none", none), ("transfer", none), ("lock", none), ("burn", none)]),
    ("extensionType", .enum 1 [("none", none), ("attributes", none), ("blob", none), ("creators",
      none), ("links", none), ("metadata", none), ("grouping", none), ("royalties", none),
      ("manager", none), ("proxy", none), ("properties", none), ("bucket", none)]),
    ("delegate", .struct [("address", .hooked "nullablePublicKey"), ("roles",
      .hooked "delegateRoles")]),
    ("extensionHeader", .struct [("kind", .num 4), ("length", .num 4), ("boundary", .num 4),
      ("padding", .num 4)]),
    ("attributes", .struct [("values", .array (.rest) (.link "trait"))]),
    ("trait", .struct [("name", .sized 1 (.string)), ("value", .sized 1 (.string))]),
    ("blob", .struct [("contentType", .sized 1 (.string)), ("data", .array (.rest) (.num 1))]),
    ("links", .struct [("values", .array (.rest) (.link "link"))]),
    ("link", .struct [("name", .sized 1 (.string)), ("uri", .sized 1 (.string))]),
    ("creators", .struct [("values", .array (.rest) (.link "creator"))]),
    ("creator", .struct [("address", .publicKey), ("verified", .bool 1), ("share", .num 1)]),
    ("metadata", .struct [("symbol", .sized 1 (.string)), ("description", .sized 1 (.string)),
      ("uri", .sized 1 (.string)), ("imageUri", .sized 1 (.string))]),
    ("grouping", .struct [("size", .num 8), ("maxSize", .num 8), ("delegate",
      .hooked "nullablePublicKey")]),
    ("manager", .struct [("delegate", .link "delegate")]),
    ("proxy", .struct [("program", .publicKey), ("seeds", .array (.exactly 32) (.num 1)), ("bump",
      .num 1), ("authority", .hooked "nullablePublicKey")]),
    ("bucket", .struct [("data", .array (.rest) (.num 1))]),
    ("type", .enum 1 [("text", none), ("number", none), ("boolean", none)])]

/-- `program.accounts`: the only one, `internalAsset`. -/
def codamaAccount : NodeType :=
  .struct [("discriminator", .link "discriminator"), ("state", .link "state"), ("standard",
    .link "standard"), ("mutable", .bool 1), ("owner", .publicKey), ("group",
    .hooked "nullablePublicKey"), ("authority", .publicKey), ("delegate", .link "delegate"),
    ("name", .padded 35 (.string))]

/-- `close`. -/
def codamaClose : InstrNode where
  accounts := [⟨"buffer", true, .yes, false, none⟩,
    ⟨"recipient", true, .no, false, none⟩]
  args := [⟨"discriminator", .num 1, some (.num 0), true⟩]

/-- `burn`. -/
def codamaBurn : InstrNode where
  accounts := [⟨"asset", true, .no, false, none⟩,
    ⟨"signer", true, .yes, false, none⟩,
    ⟨"recipient", true, .no, true, none⟩,
    ⟨"group", true, .no, true, none⟩]
  args := [⟨"discriminator", .num 1, some (.num 1), true⟩]

/-- `create`. -/
def codamaCreate : InstrNode where
  accounts := [⟨"asset", true, .yes, false, none⟩,
    ⟨"authority", false, .either, false, some .identity⟩,
    ⟨"owner", false, .no, false, some .identity⟩,
    ⟨"group", true, .no, true, none⟩,
    ⟨"groupAuthority", false, .yes, true, none⟩,
    ⟨"payer", true, .yes, true, none⟩,
    ⟨"systemProgram", false, .no, true, some (.systemIf "payer")⟩]
  args := [⟨"discriminator", .num 1, some (.num 2), true⟩,
    ⟨"name", .sized 4 (.string), none, false⟩,
    ⟨"standard", .link "standard", some (.variant "nonFungible" none), false⟩,
    ⟨"mutable", .bool 1, some (.bool true), false⟩,
    ⟨"extensions", .option 1 (.array (.counted 4) (.link "extensionInput")), some (.absent),
      false⟩]

/-- `approve`. -/
def codamaApprove : InstrNode where
  accounts := [⟨"asset", true, .no, false, none⟩,
    ⟨"owner", false, .yes, false, some .identity⟩,
    ⟨"delegate", false, .no, false, none⟩]
  args := [⟨"discriminator", .num 1, some (.num 3), true⟩,
    ⟨"delegateInput", .link "delegateInput", none, false⟩]

/-- `allocate`. -/
def codamaAllocate : InstrNode where
  accounts := [⟨"asset", true, .yes, false, none⟩,
    ⟨"payer", true, .yes, true, none⟩,
    ⟨"systemProgram", false, .no, true, some (.systemIf "payer")⟩]
  args := [⟨"discriminator", .num 1, some (.num 4), true⟩,
    ⟨"extension", .link "extensionInput", none, false⟩]

/-- `lock`. -/
def codamaLock : InstrNode where
  accounts := [⟨"asset", true, .no, false, none⟩,
    ⟨"signer", false, .yes, false, some .identity⟩]
  args := [⟨"discriminator", .num 1, some (.num 5), true⟩]

/-- `revoke`. -/
def codamaRevoke : InstrNode where
  accounts := [⟨"asset", true, .no, false, none⟩,
    ⟨"signer", false, .yes, false, some .identity⟩]
  args := [⟨"discriminator", .num 1, some (.num 6), true⟩,
    ⟨"delegateInput", .link "delegateInput", none, false⟩]

/-- `transfer`. -/
def codamaTransfer : InstrNode where
  accounts := [⟨"asset", true, .no, false, none⟩,
    ⟨"signer", false, .yes, false, some .identity⟩,
    ⟨"recipient", false, .no, false, none⟩,
    ⟨"group", false, .no, true, none⟩]
  args := [⟨"discriminator", .num 1, some (.num 7), true⟩]

/-- `unlock`. -/
def codamaUnlock : InstrNode where
  accounts := [⟨"asset", true, .no, false, none⟩,
    ⟨"signer", false, .yes, false, some .identity⟩]
  args := [⟨"discriminator", .num 1, some (.num 8), true⟩]

/-- `unverify`. -/
def codamaUnverify : InstrNode where
  accounts := [⟨"asset", true, .no, false, none⟩,
    ⟨"creator", false, .yes, false, none⟩]
  args := [⟨"discriminator", .num 1, some (.num 9), true⟩]

/-- `update`. -/
def codamaUpdate : InstrNode where
  accounts := [⟨"asset", true, .no, false, none⟩,
    ⟨"authority", false, .yes, false, some .identity⟩,
    ⟨"buffer", true, .no, true, none⟩,
    ⟨"group", false, .no, true, none⟩,
    ⟨"payer", true, .yes, true, none⟩,
    ⟨"systemProgram", false, .no, true, some (.systemIf "payer")⟩]
  args := [⟨"discriminator", .num 1, some (.num 10), true⟩,
    ⟨"name", .option 1 (.sized 4 (.string)), some (.absent), false⟩,
    ⟨"mutable", .option 1 (.bool 1), some (.absent), false⟩,
    ⟨"extension", .option 1 (.link "extensionInput"), some (.absent), false⟩]

/-- `verify`. -/
def codamaVerify : InstrNode where
  accounts := [⟨"asset", true, .no, false, none⟩,
    ⟨"creator", false, .yes, false, none⟩]
  args := [⟨"discriminator", .num 1, some (.num 11), true⟩]

/-- `write`. -/
def codamaWrite : InstrNode where
  accounts := [⟨"asset", true, .yes, false, none⟩,
    ⟨"payer", true, .yes, false, some .payer⟩,
    ⟨"systemProgram", false, .no, false, some .system⟩]
  args := [⟨"discriminator", .num 1, some (.num 12), true⟩,
    ⟨"overwrite", .bool 1, none, false⟩,
    ⟨"bytes", .sized 4 (.bytes), none, false⟩]

/-- `group`. -/
def codamaGroup : InstrNode where
  accounts := [⟨"asset", true, .no, false, none⟩,
    ⟨"group", true, .no, false, none⟩,
    ⟨"authority", false, .yes, false, some .identity⟩]
  args := [⟨"discriminator", .num 1, some (.num 13), true⟩]

/-- `ungroup`. -/
def codamaUngroup : InstrNode where
  accounts := [⟨"asset", true, .no, false, none⟩,
    ⟨"group", true, .no, false, none⟩,
    ⟨"authority", false, .yes, false, some .identity⟩]
  args := [⟨"discriminator", .num 1, some (.num 14), true⟩]

/-- `handover`. -/
def codamaHandover : InstrNode where
  accounts := [⟨"asset", true, .no, false, none⟩,
    ⟨"authority", false, .yes, false, some .identity⟩,
    ⟨"newAuthority", false, .yes, false, none⟩]
  args := [⟨"discriminator", .num 1, some (.num 15), true⟩]

/-- `remove`. -/
def codamaRemove : InstrNode where
  accounts := [⟨"asset", true, .no, false, none⟩,
    ⟨"authority", false, .yes, false, some .identity⟩,
    ⟨"group", false, .no, true, none⟩,
    ⟨"recipient", true, .no, false, some .identity⟩]
  args := [⟨"discriminator", .num 1, some (.num 16), true⟩,
    ⟨"extensionType", .link "extensionType", none, false⟩]

/-- `resize`. -/
def codamaResize : InstrNode where
  accounts := [⟨"asset", true, .no, false, none⟩,
    ⟨"authority", false, .yes, false, some .identity⟩,
    ⟨"payer", true, .either, false, some .payer⟩,
    ⟨"systemProgram", false, .no, true, some (.systemIf "payer")⟩]
  args := [⟨"discriminator", .num 1, some (.num 17), true⟩,
    ⟨"strategy", .link "strategy", none, false⟩]

/-- `program.instructions`. -/
def codamaInstructions : List (String × InstrNode) :=
  [("close", codamaClose), ("burn", codamaBurn), ("create", codamaCreate), ("approve",
    codamaApprove), ("allocate", codamaAllocate), ("lock", codamaLock), ("revoke", codamaRevoke),
    ("transfer", codamaTransfer), ("unlock", codamaUnlock), ("unverify", codamaUnverify),
    ("update", codamaUpdate), ("verify", codamaVerify), ("write", codamaWrite), ("group",
    codamaGroup), ("ungroup", codamaUngroup), ("handover", codamaHandover), ("remove",
    codamaRemove), ("resize", codamaResize)]

/-! ## idls/asset_program.json -/

/-- `types` — asset_program.json:731-890. -/
def shankAssetTypes : List (String × NodeType) :=
  [("AllocateInput", .struct [("extension", .link "ExtensionInput")]),
    ("DataInput", .struct [("overwrite", .bool 1), ("bytes", .sized 4 (.bytes))]),
    ("ExtensionInput", .struct [("extensionType", .link "ExtensionType"), ("length", .num 4),
      ("data", .option 1 (.sized 4 (.bytes)))]),
    ("MetadataInput", .struct [("name", .sized 4 (.string)), ("standard", .link "Standard"),
      ("mutable", .bool 1), ("extensions",
      .option 1 (.array (.counted 4) (.link "ExtensionInput")))]),
    ("UpdateInput", .struct [("name", .option 1 (.sized 4 (.string))), ("mutable",
      .option 1 (.bool 1)), ("extension", .option 1 (.link "ExtensionInput"))]),
    ("DelegateInput", .enum 1 [("All", none), ("Some", some (.struct [("roles",
      .array (.counted 4) (.link "DelegateRole"))]))]),
    ("Strategy", .enum 1 [("Trim", none), ("Extend", some (.struct [("value", .num 2)]))])]

/-- `instructions` — asset_program.json:4-730. -/
def shankAssetInstructions : List (String × InstrNode) :=
  [("Close",
      { accounts := [⟨"buffer", true, .yes, false, none⟩, ⟨"recipient", true, .no, false, none⟩],
        args := [⟨"discriminator", .num 1, some (.num 0), true⟩] }),
    ("Burn",
      { accounts := [⟨"asset", true, .no, false, none⟩, ⟨"signer", true, .yes, false, none⟩,
            ⟨"recipient", true, .no, true, none⟩, ⟨"group", true, .no, true, none⟩],
        args := [⟨"discriminator", .num 1, some (.num 1), true⟩] }),
    ("Create",
      { accounts := [⟨"asset", true, .yes, false, none⟩, ⟨"authority", false, .no, false, none⟩,
            ⟨"owner", false, .no, false, none⟩, ⟨"group", true, .no, true, none⟩,
            ⟨"groupAuthority", false, .yes, true, none⟩, ⟨"payer", true, .yes, true,
            none⟩, ⟨"systemProgram", false, .no, true, none⟩],
        args := [⟨"discriminator", .num 1, some (.num 2), true⟩, ⟨"metadataInput", .link "MetadataInput", none, false⟩] }),
    ("Approve",
      { accounts := [⟨"asset", true, .no, false, none⟩, ⟨"owner", false, .yes, false, none⟩,
            ⟨"delegate", false, .no, false, none⟩],
        args := [⟨"discriminator", .num 1, some (.num 3), true⟩, ⟨"delegateInput", .link "DelegateInput", none, false⟩] }),
    ("Allocate",
      { accounts := [⟨"asset", true, .yes, false, none⟩, ⟨"payer", true, .yes, true, none⟩,
            ⟨"systemProgram", false, .no, true, none⟩],
        args := [⟨"discriminator", .num 1, some (.num 4), true⟩, ⟨"allocateInput", .link "AllocateInput", none, false⟩] }),
    ("Lock",
      { accounts := [⟨"asset", true, .no, false, none⟩, ⟨"signer", false, .yes, false, none⟩],
        args := [⟨"discriminator", .num 1, some (.num 5), true⟩] }),
    ("Revoke",
      { accounts := [⟨"asset", true, .no, false, none⟩, ⟨"signer", false, .yes, false, none⟩],
        args := [⟨"discriminator", .num 1, some (.num 6), true⟩, ⟨"delegateInput", .link "DelegateInput", none, false⟩] }),
    ("Transfer",
      { accounts := [⟨"asset", true, .no, false, none⟩, ⟨"signer", false, .yes, false, none⟩,
            ⟨"recipient", false, .no, false, none⟩, ⟨"group", false, .no, true, none⟩],
        args := [⟨"discriminator", .num 1, some (.num 7), true⟩] }),
    ("Unlock",
      { accounts := [⟨"asset", true, .no, false, none⟩, ⟨"signer", false, .yes, false, none⟩],
        args := [⟨"discriminator", .num 1, some (.num 8), true⟩] }),
    ("Unverify",
      { accounts := [⟨"asset", true, .no, false, none⟩, ⟨"creator", false, .yes, false, none⟩],
        args := [⟨"discriminator", .num 1, some (.num 9), true⟩] }),
    ("Update",
      { accounts := [⟨"asset", true, .no, false, none⟩, ⟨"authority", false, .yes, false, none⟩,
            ⟨"buffer", true, .no, true, none⟩, ⟨"group", false, .no, true, none⟩,
            ⟨"payer", true, .yes, true, none⟩, ⟨"systemProgram", false, .no, true,
            none⟩],
        args := [⟨"discriminator", .num 1, some (.num 10), true⟩, ⟨"updateInput", .link "UpdateInput", none, false⟩] }),
    ("Verify",
      { accounts := [⟨"asset", true, .no, false, none⟩, ⟨"creator", false, .yes, false, none⟩],
        args := [⟨"discriminator", .num 1, some (.num 11), true⟩] }),
    ("Write",
      { accounts := [⟨"asset", true, .yes, false, none⟩, ⟨"payer", true, .yes, false, none⟩,
            ⟨"systemProgram", false, .no, false, none⟩],
        args := [⟨"discriminator", .num 1, some (.num 12), true⟩, ⟨"dataInput", .link "DataInput", none, false⟩] }),
    ("Group",
      { accounts := [⟨"asset", true, .no, false, none⟩, ⟨"group", true, .no, false, none⟩,
            ⟨"authority", false, .yes, false, none⟩],
        args := [⟨"discriminator", .num 1, some (.num 13), true⟩] }),
    ("Ungroup",
      { accounts := [⟨"asset", true, .no, false, none⟩, ⟨"group", true, .no, false, none⟩,
            ⟨"authority", false, .yes, false, none⟩],
        args := [⟨"discriminator", .num 1, some (.num 14), true⟩] }),
    ("Handover",
      { accounts := [⟨"asset", true, .no, false, none⟩, ⟨"authority", false, .yes, false, none⟩,
            ⟨"newAuthority", false, .yes, false, none⟩],
        args := [⟨"discriminator", .num 1, some (.num 15), true⟩] }),
    ("Remove",
      { accounts := [⟨"asset", true, .no, false, none⟩, ⟨"authority", false, .yes, false, none⟩,
            ⟨"group", false, .no, true, none⟩, ⟨"recipient", true, .no, false, none⟩],
        args := [⟨"discriminator", .num 1, some (.num 16), true⟩, ⟨"extensionType", .link "ExtensionType", none, false⟩] }),
    ("Resize",
      { accounts := [⟨"asset", true, .no, false, none⟩, ⟨"authority", false, .yes, false, none⟩,
            ⟨"payer", true, .no, false, none⟩, ⟨"systemProgram", false, .no, true,
            none⟩],
        args := [⟨"discriminator", .num 1, some (.num 17), true⟩, ⟨"strategy", .link "Strategy", none, false⟩] })]

/-! ## idls/nifty_asset_interface.json -/

/-- `types` — nifty_asset_interface.json:731-890. -/
def shankInterfaceTypes : List (String × NodeType) :=
  [("AllocateInput", .struct [("extension", .link "ExtensionInput")]),
    ("DataInput", .struct [("overwrite", .bool 1), ("bytes", .sized 4 (.bytes))]),
    ("ExtensionInput", .struct [("extensionType", .link "ExtensionType"), ("length", .num 4),
      ("data", .option 1 (.sized 4 (.bytes)))]),
    ("MetadataInput", .struct [("name", .sized 4 (.string)), ("standard", .link "Standard"),
      ("mutable", .bool 1), ("extensions",
      .option 1 (.array (.counted 4) (.link "ExtensionInput")))]),
    ("UpdateInput", .struct [("name", .option 1 (.sized 4 (.string))), ("mutable",
      .option 1 (.bool 1)), ("extension", .option 1 (.link "ExtensionInput"))]),
    ("DelegateInput", .enum 1 [("All", none), ("Some", some (.struct [("roles",
      .array (.counted 4) (.link "DelegateRole"))]))]),
    ("Strategy", .enum 1 [("Trim", none), ("Extend", some (.struct [("value", .num 2)]))])]

/-- `instructions` — nifty_asset_interface.json:4-730. -/
def shankInterfaceInstructions : List (String × InstrNode) :=
  [("Close",
      { accounts := [⟨"buffer", true, .yes, false, none⟩, ⟨"recipient", true, .no, false, none⟩],
        args := [⟨"discriminator", .num 1, some (.num 0), true⟩] }),
    ("Burn",
      { accounts := [⟨"asset", true, .yes, false, none⟩, ⟨"signer", true, .yes, false, none⟩,
            ⟨"recipient", true, .no, true, none⟩, ⟨"group", true, .no, true, none⟩],
        args := [⟨"discriminator", .num 1, some (.num 1), true⟩] }),
    ("Create",
      { accounts := [⟨"asset", true, .yes, false, none⟩, ⟨"authority", false, .no, false, none⟩,
            ⟨"owner", false, .no, false, none⟩, ⟨"group", true, .no, true, none⟩,
            ⟨"groupAuthority", false, .yes, true, none⟩, ⟨"payer", true, .yes, true,
            none⟩, ⟨"systemProgram", false, .no, true, none⟩],
        args := [⟨"discriminator", .num 1, some (.num 2), true⟩, ⟨"metadataInput", .link "MetadataInput", none, false⟩] }),
    ("Approve",
      { accounts := [⟨"asset", true, .yes, false, none⟩, ⟨"owner", false, .yes, false, none⟩,
            ⟨"delegate", false, .no, false, none⟩],
        args := [⟨"discriminator", .num 1, some (.num 3), true⟩, ⟨"delegateInput", .link "DelegateInput", none, false⟩] }),
    ("Allocate",
      { accounts := [⟨"asset", true, .yes, false, none⟩, ⟨"payer", true, .yes, true, none⟩,
            ⟨"systemProgram", false, .no, true, none⟩],
        args := [⟨"discriminator", .num 1, some (.num 4), true⟩, ⟨"allocateInput", .link "AllocateInput", none, false⟩] }),
    ("Lock",
      { accounts := [⟨"asset", true, .yes, false, none⟩, ⟨"signer", false, .yes, false, none⟩],
        args := [⟨"discriminator", .num 1, some (.num 5), true⟩] }),
    ("Revoke",
      { accounts := [⟨"asset", true, .yes, false, none⟩, ⟨"signer", false, .yes, false, none⟩],
        args := [⟨"discriminator", .num 1, some (.num 6), true⟩, ⟨"delegateInput", .link "DelegateInput", none, false⟩] }),
    ("Transfer",
      { accounts := [⟨"asset", true, .yes, false, none⟩, ⟨"signer", false, .yes, false, none⟩,
            ⟨"recipient", false, .no, false, none⟩, ⟨"group", false, .no, true, none⟩],
        args := [⟨"discriminator", .num 1, some (.num 7), true⟩] }),
    ("Unlock",
      { accounts := [⟨"asset", true, .yes, false, none⟩, ⟨"signer", false, .yes, false, none⟩],
        args := [⟨"discriminator", .num 1, some (.num 8), true⟩] }),
    ("Unverify",
      { accounts := [⟨"asset", true, .yes, false, none⟩, ⟨"creator", false, .yes, false, none⟩],
        args := [⟨"discriminator", .num 1, some (.num 9), true⟩] }),
    ("Update",
      { accounts := [⟨"asset", true, .yes, false, none⟩, ⟨"authority", false, .yes, false, none⟩,
            ⟨"buffer", true, .no, true, none⟩, ⟨"group", false, .no, true, none⟩,
            ⟨"payer", true, .yes, true, none⟩, ⟨"systemProgram", false, .no, true,
            none⟩],
        args := [⟨"discriminator", .num 1, some (.num 10), true⟩, ⟨"updateInput", .link "UpdateInput", none, false⟩] }),
    ("Verify",
      { accounts := [⟨"asset", true, .yes, false, none⟩, ⟨"creator", false, .yes, false, none⟩],
        args := [⟨"discriminator", .num 1, some (.num 11), true⟩] }),
    ("Write",
      { accounts := [⟨"asset", true, .yes, false, none⟩, ⟨"payer", true, .yes, false, none⟩,
            ⟨"systemProgram", false, .no, false, none⟩],
        args := [⟨"discriminator", .num 1, some (.num 12), true⟩, ⟨"dataInput", .link "DataInput", none, false⟩] }),
    ("Group",
      { accounts := [⟨"asset", true, .yes, false, none⟩, ⟨"group", true, .no, false, none⟩,
            ⟨"authority", false, .yes, false, none⟩],
        args := [⟨"discriminator", .num 1, some (.num 13), true⟩] }),
    ("Ungroup",
      { accounts := [⟨"asset", true, .yes, false, none⟩, ⟨"group", true, .no, false, none⟩,
            ⟨"authority", false, .yes, false, none⟩],
        args := [⟨"discriminator", .num 1, some (.num 14), true⟩] }),
    ("Handover",
      { accounts := [⟨"asset", true, .yes, false, none⟩, ⟨"authority", false, .yes, false, none⟩,
            ⟨"newAuthority", false, .yes, false, none⟩],
        args := [⟨"discriminator", .num 1, some (.num 15), true⟩] }),
    ("Remove",
      { accounts := [⟨"asset", true, .yes, false, none⟩, ⟨"authority", false, .yes, false, none⟩,
            ⟨"group", false, .no, true, none⟩, ⟨"recipient", true, .no, false, none⟩],
        args := [⟨"discriminator", .num 1, some (.num 16), true⟩, ⟨"extensionType", .link "ExtensionType", none, false⟩] }),
    ("Resize",
      { accounts := [⟨"asset", true, .yes, false, none⟩, ⟨"authority", false, .yes, false, none⟩,
            ⟨"payer", true, .no, false, none⟩, ⟨"systemProgram", false, .no, true,
            none⟩],
        args := [⟨"discriminator", .num 1, some (.num 17), true⟩, ⟨"strategy", .link "Strategy", none, false⟩] })]

/-! ## idls/bridge_program.json -/

/-- `types` — bridge_program.json:272-313. -/
def shankBridgeTypes : List (String × NodeType) :=
  [("CreateArgs", .struct [("isCollection", .bool 1)]),
    ("Discriminator", .enum 1 [("Uninitialized", none), ("Vault", none)]),
    ("State", .enum 1 [("Idle", none), ("Active", none)])]

/-- `instructions` — bridge_program.json:4-271. -/
def shankBridgeInstructions : List (String × InstrNode) :=
  [("Bridge",
      { accounts := [⟨"asset", true, .no, false, none⟩, ⟨"vault", true, .no, false, none⟩,
            ⟨"owner", false, .yes, false, none⟩, ⟨"token", true, .no, false, none⟩,
            ⟨"mint", false, .no, false, none⟩, ⟨"metadata", true, .no, false, none⟩,
            ⟨"masterEdition", false, .no, false, none⟩, ⟨"tokenRecord", true, .no,
            true, none⟩, ⟨"vaultToken", true, .no, false, none⟩, ⟨"vaultTokenRecord",
            true, .no, true, none⟩, ⟨"payer", true, .yes, false, none⟩,
            ⟨"niftyAssetProgram", false, .no, false, none⟩, ⟨"tokenMetadataProgram",
            false, .no, false, none⟩, ⟨"systemProgram", false, .no, false, none⟩,
            ⟨"sysvarInstructions", false, .no, false, none⟩, ⟨"splTokenProgram",
            false, .no, false, none⟩, ⟨"splAtaProgram", false, .no, false, none⟩,
            ⟨"authorizationRulesProgram", false, .no, true, none⟩,
            ⟨"authorizationRules", false, .no, true, none⟩, ⟨"groupAsset", false, .no,
            true, none⟩],
        args := [⟨"discriminator", .num 1, some (.num 0), true⟩] }),
    ("Create",
      { accounts := [⟨"asset", true, .no, false, none⟩, ⟨"vault", true, .no, false, none⟩,
            ⟨"mint", false, .no, false, none⟩, ⟨"metadata", false, .no, false, none⟩,
            ⟨"updateAuthority", false, .no, false, none⟩, ⟨"collection", false, .no,
            true, none⟩, ⟨"payer", true, .yes, false, none⟩, ⟨"systemProgram", false,
            .no, false, none⟩, ⟨"niftyAssetProgram", false, .no, false, none⟩],
        args := [⟨"discriminator", .num 1, some (.num 1), true⟩, ⟨"createArgs", .link "CreateArgs", none, false⟩] })]

/-! ## idls/proxy_program.json -/

/-- `types` — proxy_program.json:81-106. -/
def shankProxyTypes : List (String × NodeType) :=
  [("CreateArgs", .struct [("isCollection", .bool 1)]),
    ("Metadata", .struct [("name", .sized 4 (.string))])]

/-- `instructions` — proxy_program.json:4-80. -/
def shankProxyInstructions : List (String × InstrNode) :=
  [("Create",
      { accounts := [⟨"asset", true, .no, false, none⟩, ⟨"stub", false, .yes, false, none⟩,
            ⟨"owner", false, .no, false, none⟩, ⟨"authority", false, .yes, false,
            none⟩, ⟨"payer", true, .yes, true, none⟩, ⟨"systemProgram", false, .no,
            true, none⟩, ⟨"niftyAssetProgram", false, .no, false, none⟩],
        args := [⟨"discriminator", .num 1, some (.num 0), true⟩, ⟨"metadata", .link "Metadata", none, false⟩] })]

end Verif
