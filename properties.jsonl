{"id": "C01", "title": "Only the owner or the effective transfer delegate can transfer", "statement": "If a Transfer instruction succeeds, the account passed as signer signed the instruction and is either the recorded owner of the asset, or the address of the delegate that governs the asset (the Manager-extension delegate when the asset has one, otherwise the holder-approved delegate) with the Transfer role active.", "quantifier": "every ledger, every asset account content (any bytes, any extensions), every account list and signer set", "why_tests_cant": "The signer/delegate/manager combinations and arbitrary stored bytes are unbounded; tests cover a handful of actors.", "anchors": ["programs/asset/program/src/processor/transfer.rs process_transfer", "programs/asset/program/src/utils.rs assert_delegate"]}
{"id": "C02", "title": "Transfer has exactly its documented effect", "statement": "A successful Transfer to a recipient different from the owner sets the owner to the recipient and clears the delegate and its roles; a self-transfer changes nothing; in both cases every other byte of the asset, its lamports, its owning program and every other account are unchanged.", "quantifier": "every ledger, asset content and account list for which Transfer succeeds", "why_tests_cant": "A frame condition over all bytes and all accounts cannot be enumerated.", "anchors": ["programs/asset/program/src/processor/transfer.rs process_transfer"]}
{"id": "C03", "title": "Soulbound assets never change hands", "statement": "Whatever sequence of instructions is submitted by whatever signers, an initialised soulbound asset keeps its recorded owner until it is burned (and Transfer always fails on it).", "quantifier": "every history of instructions of any length by arbitrary signers", "why_tests_cant": "A safety property of all histories, including adversarial ones, is beyond finite scripts.", "anchors": ["programs/asset/program/src/processor/transfer.rs process_transfer", "programs/asset/program/src/processor/mod.rs process_instruction"]}
{"id": "C04", "title": "A locked asset is frozen", "statement": "While an asset is locked, Approve, Revoke, Burn, Lock and Transfer are rejected for it, so its owner and delegate stay the same in every history until some Unlock succeeds.", "quantifier": "every history of instructions; every account list that mentions the locked asset", "why_tests_cant": "Requires all interleavings of instructions over arbitrary account lists.", "anchors": ["programs/asset/program/src/processor/mod.rs validate_access", "programs/asset/program/src/processor/mod.rs process_instruction"]}
{"id": "C05", "title": "Lock and unlock are authorised and touch only the lock state", "statement": "Lock/Unlock succeed only when signed by the effective Lock delegate, or by the owner when no holder delegate is set; they change only the state byte of the asset, to Locked/Unlocked respectively.", "quantifier": "every ledger, asset content, account list and signer set", "why_tests_cant": "Unbounded combinations of delegate, manager and owner keys.", "anchors": ["programs/asset/program/src/processor/lock.rs process_lock", "programs/asset/program/src/processor/unlock.rs process_unlock", "programs/asset/program/src/utils.rs assert_delegate"]}
{"id": "C06", "title": "Approve grants exactly the requested roles", "statement": "Approve succeeds only for a signing owner; afterwards the delegate is the given account and its active roles are the requested roles, plus the previously active ones when the same delegate was already set; nothing else changes.", "quantifier": "every ledger, asset content, delegate key and list of roles", "why_tests_cant": "Role lists are unbounded and the prior delegate state is arbitrary.", "anchors": ["programs/asset/program/src/processor/approve.rs process_approve", "programs/asset/types/src/state/delegate.rs Delegate"]}
{"id": "C07", "title": "Revoke removes exactly the requested roles", "statement": "Revoke succeeds only for a signing owner or the current delegate; afterwards a role is active iff it was active before and was not requested to be revoked; revoking everything (or the last active role) clears the delegate entirely; nothing else changes.", "quantifier": "every ledger, asset content, signer and list of roles", "why_tests_cant": "Role lists and prior roles byte are arbitrary.", "anchors": ["programs/asset/program/src/processor/revoke.rs process_revoke", "programs/asset/types/src/state/delegate.rs Delegate"]}
{"id": "C08", "title": "Immutability is permanent", "statement": "Once an initialised asset is marked immutable, no later instruction changes its name, authority, standard, mutability flag or the set, order, length or placement of its extensions; only membership bookkeeping (group field, group size), creator verified flags, owner, lock state and delegate can change, until it is burned.", "quantifier": "every history of instructions of any length by arbitrary signers", "why_tests_cant": "Permanence quantifies over all future histories.", "anchors": ["programs/asset/program/src/processor/update.rs process_update", "programs/asset/program/src/processor/handover.rs process_handover", "programs/asset/program/src/processor/remove.rs process_remove", "programs/asset/program/src/processor/resize.rs process_resize"]}
{"id": "C09", "title": "Authority changes only by a doubly signed handover", "statement": "The authority recorded in an initialised asset changes only through a Handover signed by both the current and the new authority on a mutable asset; no other instruction of any history changes it while the asset exists.", "quantifier": "every history of instructions of any length by arbitrary signers", "why_tests_cant": "Quantifies over all instruction kinds, contents and histories.", "anchors": ["programs/asset/program/src/processor/handover.rs process_handover"]}
{"id": "C10", "title": "Burn is authorised and complete", "statement": "A successful Burn was signed by the owner or the effective Burn delegate of an asset that is not a non-empty group; it leaves the account empty, owned by the system program and without lamports, credits exactly those lamports to the recipient, and (if the asset is in a group) decreases that group's size by exactly one, changing nothing else.", "quantifier": "every ledger, asset content, account list and signer set", "why_tests_cant": "Frame and accounting conditions over arbitrary account contents.", "anchors": ["programs/asset/program/src/processor/burn.rs process_burn", "programs/asset/program/src/utils.rs close_program_account"]}
{"id": "C11", "title": "Group size equals the number of members", "statement": "Starting from a consistent ledger, after any history the size stored in a group asset equals the number of initialised assets that reference the group.", "quantifier": "every history of Create/Group/Ungroup/Burn/Update/... instructions over any number of assets and groups", "why_tests_cant": "A global counting invariant over unbounded populations and histories.", "anchors": ["programs/asset/program/src/processor/group.rs process_group", "programs/asset/program/src/processor/ungroup.rs process_ungroup", "programs/asset/program/src/processor/burn.rs process_burn", "programs/asset/program/src/processor/create.rs process_create"]}
{"id": "C12", "title": "A group never exceeds its maximum size", "statement": "If a group declares a maximum size, its recorded size never exceeds it, in any history: grouping into a full group fails and the maximum cannot be lowered below the size.", "quantifier": "every history and every pair of 64-bit size/max values", "why_tests_cant": "64-bit values and unbounded histories.", "anchors": ["programs/asset/program/src/processor/group.rs process_group", "programs/asset/types/src/extensions/grouping.rs Grouping on_update"]}
{"id": "C13", "title": "Group and ungroup are authorised by the group", "statement": "Group succeeds only if a signer is the group's authority or its grouping delegate, the asset and group share the same authority, the asset is in no group and the group is not full; Ungroup only if a signer is the group's authority or delegate and the asset references that group. They change only the asset's group field and the group's size (by one).", "quantifier": "every ledger, pair of accounts (including the same account twice) and signer set", "why_tests_cant": "Aliasing, arbitrary delegates and arbitrary bytes.", "anchors": ["programs/asset/program/src/processor/group.rs process_group", "programs/asset/program/src/processor/ungroup.rs process_ungroup"]}
{"id": "C14", "title": "Proxied assets only move with their proxy's signature", "statement": "No instruction whose first account is a proxied asset succeeds unless that asset account itself signed, and a proxied asset can only be created at the program-derived address of the proxy program, seeds and bump stored in its Proxy extension.", "quantifier": "every instruction, account list, signer set and asset content", "why_tests_cant": "Covers all instruction kinds and arbitrary contents.", "anchors": ["programs/asset/program/src/processor/mod.rs validate_access", "programs/asset/program/src/processor/create.rs process_create"]}
{"id": "C15", "title": "Create yields exactly the requested asset, once", "statement": "A successful Create was signed by the asset account, was applied to an empty or uninitialised account, and leaves an initialised asset with the requested standard, mutability, owner, authority and (truncated) name; a Managed asset has a Manager extension and no other standard does; likewise for Proxied and Proxy. An initialised asset can never be created or allocated or written again.", "quantifier": "every ledger, account list, metadata input and extension list", "why_tests_cant": "Arbitrary prior buffers and extension lists.", "anchors": ["programs/asset/program/src/processor/create.rs process_create", "programs/asset/program/src/processor/allocate.rs process_allocate", "programs/asset/program/src/processor/write.rs process_write"]}
{"id": "C16", "title": "Creator shares always total one hundred", "statement": "Whenever a Creators extension is accepted (at create or update), the shares of the accepted creators add up to exactly 100.", "quantifier": "every creator list of any length with arbitrary shares", "why_tests_cant": "Lists are unbounded and arithmetic is fixed-width.", "anchors": ["programs/asset/types/src/extensions/creators.rs Creators on_create/on_update"]}
{"id": "C17", "title": "A creator is marked verified only with that creator's consent", "statement": "The verified flag of a creator address becomes true only through an instruction signed by that address; Verify/Unverify set exactly the flags of the signing creator and change nothing else.", "quantifier": "every history, creator list and signer set", "why_tests_cant": "Quantifies over all instruction kinds and histories.", "anchors": ["programs/asset/program/src/processor/verify.rs process_verify", "programs/asset/program/src/processor/unverify.rs process_unverify", "programs/asset/types/src/extensions/creators.rs", "programs/asset/program/src/processor/create.rs process_create"]}
{"id": "C18", "title": "Verified creators cannot be dropped or unverified by an update", "statement": "If an inline update of the Creators extension is accepted, every address that was verified before is still present and verified afterwards, and any newly verified address is the authority that signed the update.", "quantifier": "every pair of creator lists of any length, with duplicates", "why_tests_cant": "Lists are unbounded.", "anchors": ["programs/asset/types/src/extensions/creators.rs Creators on_update", "programs/asset/program/src/processor/update.rs validate"]}
{"id": "C19", "title": "Royalty basis points never exceed 100%", "statement": "Whenever Royalties data is accepted (at create or update) its basis points are at most 10000.", "quantifier": "every 64-bit value and every constraint payload", "why_tests_cant": "64-bit input space.", "anchors": ["programs/asset/types/src/extensions/royalties.rs Royalties on_create/on_update"]}
{"id": "C20", "title": "Royalty constraints gate every non wallet-to-wallet transfer", "statement": "If the asset (or, when the asset has none, its group) carries royalties, a successful Transfer to a new owner is either a top-level transfer whose signer and recipient are both system-owned accounts, or the royalty constraint passed for the actual asset, signer and recipient. A member of a group cannot dodge the check by omitting or substituting the group account.", "quantifier": "every ledger, constraint tree of any depth, account list", "why_tests_cant": "Constraint trees and account lists are unbounded.", "anchors": ["programs/asset/program/src/processor/transfer.rs process_transfer", "programs/asset/program/src/utils.rs process_royalties"]}
{"id": "C21", "title": "Constraint evaluation follows boolean semantics", "statement": "Evaluating a constraint built from And/Or/Not/OwnedBy/PubkeyMatch/Empty yields Pass iff the corresponding boolean formula over the asset, authority and recipient accounts holds (with And true and Or false on no operands); an error is raised only when a recipient is referenced but absent.", "quantifier": "every constraint tree of any depth and width and every context", "why_tests_cant": "Trees are unbounded.", "anchors": ["programs/asset/types/src/constraints/and.rs", "programs/asset/types/src/constraints/or.rs", "programs/asset/types/src/constraints/not.rs", "programs/asset/types/src/constraints/owned_by.rs", "programs/asset/types/src/constraints/pubkey_match.rs"]}
{"id": "C22", "title": "Constraint builders and parser are inverse", "statement": "Parsing the bytes produced by a constraint builder returns the same constraint tree and consumes exactly those bytes, so what a creator configures is what the program enforces; distinct constraints have distinct encodings.", "quantifier": "every constraint tree of any depth and width whose encoding fits 32-bit sizes", "why_tests_cant": "Trees are unbounded.", "anchors": ["programs/asset/types/src/constraints/mod.rs Constraint from_bytes", "programs/asset/types/src/constraints/*.rs builders"]}
{"id": "C23", "title": "Extension builders and readers are inverse", "statement": "For every extension type, reading the bytes produced by its builder returns the same fields (attributes, links, properties, creators, metadata, grouping, royalties, manager, proxy, blob), as long as each string fits its one byte length prefix.", "quantifier": "every list of fields of any length", "why_tests_cant": "Unbounded lists and strings.", "anchors": ["programs/asset/types/src/extensions/*.rs builders and from_bytes"]}
{"id": "C24", "title": "Updating an extension stores exactly the new data and preserves all others", "statement": "After a successful Update with extension data on an asset with a well-formed extension area, reading that extension returns the new (validated) data and every other extension keeps its type, order and content; the account stays well-formed and the header is unchanged except for the requested name and mutability.", "quantifier": "every well-formed asset with any number and sizes of extensions, growing, shrinking, same-size or new extensions", "why_tests_cant": "Any number of extensions of any size in any order.", "anchors": ["programs/asset/program/src/processor/update.rs process_update", "programs/asset/types/src/state/asset.rs Asset get/last_extension"]}
{"id": "C25", "title": "Removing an extension removes only that extension", "statement": "After a successful Remove on a well-formed asset, the extension is gone and every other extension still reads back with the same content; the header is unchanged.", "quantifier": "every well-formed asset with any number and sizes of extensions", "why_tests_cant": "Any number of extensions in any order.", "anchors": ["programs/asset/program/src/processor/remove.rs process_remove"]}
{"id": "C26", "title": "Resizing never alters the asset", "statement": "Resize (trim or extend) needs the signing authority of a mutable asset and leaves the header and every extension readable and unchanged; trim leaves no spare bytes.", "quantifier": "every well-formed asset and every extend amount", "why_tests_cant": "Any account content and size.", "anchors": ["programs/asset/program/src/processor/resize.rs process_resize", "programs/asset/program/src/processor/mod.rs resize"]}
{"id": "C27", "title": "Lamports are conserved", "statement": "No instruction creates or destroys lamports: the total over the instruction's accounts is unchanged by every successful instruction, and only the paying signer, the closed account or the shrunk asset lose lamports.", "quantifier": "every instruction, account list (with repeated accounts) and balances", "why_tests_cant": "Accounting over arbitrary lists with aliasing.", "anchors": ["programs/asset/program/src/processor/mod.rs resize", "programs/asset/program/src/utils.rs close_program_account", "programs/asset/program/src/processor/create.rs", "programs/asset/program/src/processor/allocate.rs"]}
{"id": "C28", "title": "Only unfinished buffers can be closed, by themselves", "statement": "Close succeeds only on a program-owned account that signed and is empty or uninitialised; an initialised asset can only disappear through Burn.", "quantifier": "every history of instructions", "why_tests_cant": "Quantifies over all histories.", "anchors": ["programs/asset/program/src/processor/close.rs process_close", "programs/asset/program/src/utils.rs close_program_account"]}
{"id": "C29", "title": "Instructions do not touch unrelated accounts", "statement": "A successful instruction changes the data of at most the accounts in its asset, group and buffer positions, never changes an account not passed to it, and never changes data of accounts owned by other programs (other than an empty account being created).", "quantifier": "every instruction, account list and ledger", "why_tests_cant": "Frame over the whole ledger.", "anchors": ["programs/asset/program/src/processor/*.rs"]}
{"id": "C30", "title": "Instruction decoding is unambiguous and total", "statement": "Every serialised instruction decodes back to itself, decoding never succeeds with bytes left over, and two different instructions never share an encoding.", "quantifier": "every instruction with arbitrary strings, role lists, extension lists and byte payloads", "why_tests_cant": "Inputs are unbounded.", "anchors": ["programs/asset/program/src/instruction.rs Instruction", "programs/asset/program/src/processor/mod.rs process_instruction"]}
{"id": "C31", "title": "Chunked allocation equals one-shot allocation", "statement": "Allocating an extension with a first chunk and appending the remaining chunks with Write, for any split of the data, produces the same account bytes as allocating it with all data at once; another extension cannot be allocated before all data is written.", "quantifier": "every data payload and every split into chunks", "why_tests_cant": "All splits of unbounded data.", "anchors": ["programs/asset/program/src/processor/allocate.rs process_allocate", "programs/asset/program/src/processor/write.rs process_write", "clients/rust/asset/src/mint.rs mint"]}
{"id": "C32", "title": "Traversal of the extension area is safe", "statement": "Looking up, listing and finding the last extension on any account produced by honest instructions terminates, never reads outside the account and reports exactly the extensions stored, in order; the lookup through the whole account and the one through the extension area agree.", "quantifier": "every well-formed account with any number and sizes of extensions and any trailing zeroed space", "why_tests_cant": "Any number and size of extensions.", "anchors": ["programs/asset/types/src/state/asset.rs Asset", "programs/asset/types/src/extensions/mod.rs Extension get/get_mut"]}
{"id": "C33", "title": "Extensions are created in the requested order with the requested content", "statement": "After a Create with a list of complete extensions on an empty account, the asset contains exactly those extensions with exactly that data (verified flags aside).", "quantifier": "every list of extensions of any length", "why_tests_cant": "Lists are unbounded.", "anchors": ["programs/asset/program/src/processor/create.rs process_create", "programs/asset/program/src/processor/allocate.rs save_extension_data"]}
{"id": "C34", "title": "Updating from a buffer is equivalent to updating inline", "statement": "An Update whose extension comes from a completely written buffer account is accepted exactly when the same Update with inline data is, with the same result on the asset.", "quantifier": "every buffer content, extension type and asset", "why_tests_cant": "Arbitrary contents.", "anchors": ["programs/asset/program/src/processor/update.rs process_update"]}
{"id": "C35", "title": "Bridge never lets token and asset circulate together", "statement": "For a bridge vault, in every history of bridge operations the token is held by the vault exactly when the bridged asset is with a user (active), and the asset is held by the vault exactly when the token is with a user (idle); each bridge call toggles between the two and needs the holder's signature.", "quantifier": "every history of bridge calls by arbitrary signers", "why_tests_cant": "Unbounded histories.", "anchors": ["programs/bridge/src/processor/bridge.rs", "programs/bridge/src/state/vault.rs"]}
{"id": "C36", "title": "Proxy program enforces its own authority", "statement": "Through the proxy program, Update succeeds only when signed by the authority stored in the asset's Proxy extension, never forwards extension changes, and every proxied transfer increments the transfer counter by exactly one.", "quantifier": "every asset content, signer set and instruction payload", "why_tests_cant": "Arbitrary contents.", "anchors": ["programs/proxy/src/processor/update.rs", "programs/proxy/src/processor/transfer.rs", "programs/asset/interface/src/processor.rs"]}
{"id": "C37", "title": "Interface forwards instructions unchanged", "statement": "The proxy interface forwards exactly the received instruction data and accounts to the asset program, adding only the asset's own signature, and does so for every instruction the asset program understands.", "quantifier": "every instruction and account list", "why_tests_cant": "Inputs unbounded.", "anchors": ["programs/asset/interface/src/processor.rs"]}
{"id": "C38", "title": "Client encodings of roles and keys are faithful", "statement": "The client-side decoding of delegate role bytes lists exactly the active roles, encoding those roles again gives the same active roles, and the nullable public key decodes to None exactly for the default key.", "quantifier": "every roles byte and key", "why_tests_cant": "Every byte and key.", "anchors": ["clients/rust/asset/src/hooked", "programs/asset/types/src/state/delegate.rs Delegate decode_roles"]}
{"id": "C39", "title": "The program refines an asset state machine", "statement": "For every asset of the ledger, every successful instruction (whatever its accounts) either burns the asset or performs one of the listed moves on it (transfer, approve, revoke, lock, unlock, join or leave a group, handover, retitle, update, remove, verify, unverify, member count change), with the stated signatures, and leaves the account well-formed.", "quantifier": "every instruction, account list, signer set and well-formed asset", "why_tests_cant": "Quantifies over all instructions, contents and account lists at once.", "anchors": ["programs/asset/program/src/processor/mod.rs process_instruction", "programs/asset/program/src/processor/*.rs"]}
{"id": "C40", "title": "Strangers cannot use a proxied asset's own authority", "statement": "When an asset is its own authority and the authority of its maker is stored in its Proxy extension, no instruction sent to the proxy program makes use of the asset's authority (handing it over, removing extensions, changing groups) unless that stored authority signed.", "quantifier": "every instruction, account list, signer set and asset content", "why_tests_cant": "Quantifies over every instruction and every set of signers.", "anchors": ["programs/proxy/src/processor/mod.rs process_instruction", "programs/asset/interface/src/processor.rs"]}
{"id": "C41", "title": "Every account of the program is a well-formed asset or a buffer", "statement": "Starting from a state in which the program owns no account, after any history of instructions and of actions of other programs, every account the program owns either stores an asset whose extension area is a packed list of extensions of distinct types, or is a buffer under construction that no instruction mistakes for an asset.", "quantifier": "every history from an empty program, every account, every instruction with every account list and signer set", "why_tests_cant": "It is an invariant of all reachable states; tests visit a few histories.", "anchors": ["programs/asset/types/src/state/asset.rs Asset", "programs/asset/program/src/processor/mod.rs process_instruction", "programs/asset/program/src/processor/{allocate,write,create,update,remove,resize}.rs"]}
{"id": "C42", "title": "Unfinished accounts change only with their own signature", "statement": "An account of the program that is not yet an asset (a buffer being filled) has its data or owner changed, or its balance reduced, only by an instruction that the account's own key signed.", "quantifier": "every instruction, account list, signer set and ledger", "why_tests_cant": "Quantifies over every instruction with every placement of the buffer in the account list; tests only put buffers where they belong.", "anchors": ["programs/asset/program/src/processor/{allocate,write,create,close,update,burn}.rs", "programs/asset/program/src/processor/mod.rs process_instruction"]}
{"id": "C43", "title": "Minting with the Rust client creates exactly the requested asset", "statement": "When the instructions returned by the Rust client's mint function are executed in order on an unused account, and nothing else writes to the account, it holds an asset with exactly the requested owner (also as authority), name (as far as it fits the 35 bytes of the header), standard, mutability and extensions in the requested order, with the data given except that the verified flag of a creator is set exactly for the owner; and for names of at most 887 bytes every instruction of the list fits in a transaction of 1232 bytes.", "quantifier": "every mint request with any number of extensions of any size, every history in which other instructions come in between", "why_tests_cant": "Covers every split of the data into pieces and every extension type and size; tests use a few small assets.", "anchors": ["clients/rust/asset/src/mint.rs mint", "clients/rust/asset/src/generated/instructions/{allocate,write,create}.rs", "programs/asset/program/src/processor/{allocate,write,create}.rs"]}
{"id": "C44", "title": "Extensions described in JSON are stored as described", "statement": "The extension data that the Rust client makes from a JSON description (with strings of at most 255 bytes) is read back by the on-chain types as exactly the values described, and minting with it stores those values.", "quantifier": "every JSON value of the six supported kinds with strings of at most 255 bytes", "why_tests_cant": "Relates two independent encoders and decoders for all values.", "anchors": ["clients/rust/asset/src/mint.rs ExtensionValue::into_data", "programs/asset/types/src/extensions/{attributes,blob,creators,links,metadata,royalties}.rs"]}
{"id": "C45", "title": "JSON allowlists and denylists restrict the recipients of a transfer", "statement": "An asset minted from JSON with a royalties allowlist can be transferred by a program only to the listed accounts, and one with a denylist cannot be transferred to accounts of the listed programs.", "quantifier": "every list, asset, signer and recipient", "why_tests_cant": "Quantifies over all lists and recipients, and depends on how the constraint selects its account.", "anchors": ["clients/rust/asset/src/mint.rs JsonRoyalties::into_data", "programs/asset/types/src/constraints/{pubkey_match,owned_by}.rs", "programs/asset/program/src/processor/transfer.rs"]}
{"id": "C46", "title": "Instructions built by the Rust client are what they stand for", "statement": "The data of an instruction built by the generated Rust client is decoded by the program as that instruction with the same arguments, its accounts are taken for what they were named, and the signer and writable flags it sets suffice: whenever the instruction succeeds with some privileges that include them, it succeeds with the same outcome with exactly these. The exception are proxied assets, whose signature the client does not request and without which the program refuses.", "quantifier": "all 18 instructions, all accounts (also repeated ones) and arguments, all ledgers and privileges", "why_tests_cant": "Relates every combination of optional accounts, arguments and account contents of the client with the processors of the program.", "anchors": ["clients/rust/asset/src/generated/instructions/*.rs", "programs/asset/program/src/instruction.rs", "programs/asset/program/src/processor/*.rs"]}
{"id": "C47", "title": "Creating an asset on the bridge puts it into a new vault and mirrors the token", "statement": "If the bridge program's Create succeeds for a token whose asset address is unused, then the vault of the token is new and idle, and it owns the new asset, which has no delegate, manager or group; name, symbol, uri, creators with their shares, seller fee of a programmable collection and update authority are those of the token. The update authority of the token has signed, or the token belongs to a verified collection whose asset is already on the bridge. Create succeeds only while the token has no vault, and it never affects the vaults of other tokens.", "quantifier": "for all environments, ledgers, tokens within the limits of the token metadata program, account lists and both values of is_collection", "why_tests_cant": "Tests create a few collections and items with one metadata layout each; they do not cover every combination of optional metadata, forged accounts, or the interplay with existing vaults.", "anchors": ["programs/bridge/src/processor/create.rs:34-282", "programs/bridge/src/state/vault.rs:8-34", "programs/bridge/src/state/bridged_asset.rs:4-18", "programs/bridge/src/instruction.rs:40-50"]}
{"id": "C48", "title": "Requests of those entitled are accepted", "statement": "For an account that stores an asset with readable manager data, when the account is writable, a proxied asset signs and no account passed along is a locked asset (fragment), Lock, Unlock, Approve, Revoke, Handover, Group and Ungroup succeed exactly when the person entitled to them signs (and the asset is unlocked, mutable, ungrouped, or the group has room, as the case may be). Transfer, Burn, Verify and Unverify succeed when the owner, a delegate with the role, or a listed creator signs and the royalties allow it, the group is empty, and so on. Nothing else can make the program refuse.", "quantifier": "for all environments, ledgers, assets, signers, delegates, account lists with any further accounts", "why_tests_cant": "A refusal may depend on any combination of extensions, roles, further accounts and byte values; tests only try a handful of accepted requests.", "anchors": ["programs/asset/program/src/processor/lock.rs:21-70", "programs/asset/program/src/processor/unlock.rs:21-70", "programs/asset/program/src/processor/approve.rs:23-81", "programs/asset/program/src/processor/revoke.rs:23-85", "programs/asset/program/src/processor/transfer.rs:34-142", "programs/asset/program/src/processor/burn.rs:25-116", "programs/asset/program/src/processor/group.rs:22-117", "programs/asset/program/src/processor/ungroup.rs:22-102", "programs/asset/program/src/processor/handover.rs:20-66", "programs/asset/program/src/processor/verify.rs:20-71", "programs/asset/program/src/processor/mod.rs:160-206"]}
{"id": "C49", "title": "Nobody can keep the owner from moving an unlocked asset", "statement": "The owner of an asset that is unlocked and not soulbound can transfer it to any wallet (at top level) and burn it, whatever the authority of the asset, its group or the owner of its group have done.", "quantifier": "for all assets, ledgers, wallets and actions of others", "why_tests_cant": "It quantifies over everything others may have done to the asset and its group before.", "anchors": ["programs/asset/program/src/processor/mod.rs:189-206", "programs/asset/program/src/processor/transfer.rs:95-133", "programs/asset/program/src/processor/burn.rs:70-100", "programs/asset/program/src/processor/update.rs:221-264", "programs/asset/program/src/utils.rs:61-106"]}
{"id": "C50", "title": "Extension data is accepted exactly when it is well formed", "statement": "The validation of an extension at creation and at update succeeds exactly when the new data (and, for an update, the data it replaces) can be decoded as this type of extension and satisfies the rules for the type, and it stores exactly the data given by the rules. Hence every extension of a newly created asset can be decoded, and stays decodable as long as the authority only updates with inline data.", "quantifier": "for all extension types, all byte strings as new and old data, all authorities, all ledgers and Create instructions, and all histories of an asset", "why_tests_cant": "The set of byte strings accepted by each decoder is infinite; tests show that a few valid ones pass and a few invalid ones fail, not that the boundary is exactly the stated grammar.", "anchors": ["programs/asset/types/src/extensions/mod.rs:270-335", "programs/asset/types/src/extensions/attributes.rs:20-70", "programs/asset/types/src/extensions/metadata.rs:20-80", "programs/asset/types/src/extensions/properties.rs:20-140", "programs/asset/program/src/processor/create.rs:130-200", "programs/asset/program/src/processor/update.rs:60-180"]}
{"id": "C51", "title": "Edits of the authority are accepted", "statement": "For an account that stores a mutable asset, an Update of name, mutability or one extension, a Remove and a Resize succeed exactly when the authority signs, provided the new data is acceptable (for the extension type and the data it replaces), the rent of a larger account is there or paid for by a signing wallet within the limits of the runtime, somebody takes the rent of a smaller account, the removed extension is not a manager, a proxy or a group with members and is followed by at least one byte after its header, and no bytes after the last extension stand in the way (there are none, or the extension changes its size in words, or it is new and at least 16 spare bytes exist). They then have exactly the intended effect. (For a group and for royalties, the lengths of the new name and of the data must also add up to a multiple of 8, see C90.) An Update with unacceptable data always fails. With a single spare byte after the last extension, writing an extension of the same size and adding a new one panic.", "quantifier": "all ledgers, environments, assets and their extension lists, data and sizes", "why_tests_cant": "success depends on the sizes of all extensions, spare bytes, rent and the limits of the runtime; tests try a few layouts without spare bytes", "anchors": ["programs/asset/program/src/processor/update.rs:41-380", "programs/asset/program/src/processor/remove.rs:28-140", "programs/asset/program/src/processor/resize.rs:26-79", "programs/asset/program/src/processor/mod.rs:208-270"]}
{"id": "C52", "title": "A mint with the Rust client goes through", "statement": "Let the instructions that mint of the Rust client builds be sent one after the other, each signed as its account metas ask for. If the address of the asset is unused (no lamports, no data), the extensions are of distinct types, readable and acceptable for the owner, the standard is managed exactly when there is a manager and proxied exactly when there is a proxy whose derivation yields the address, the name is valid UTF-8, the asset needs at most 10 MiB, and the payer is a wallet other than the asset that owns the rent of all sizes up to the final one, then every instruction succeeds. Afterwards the account stores exactly the asset asked for, payer and asset together own the lamports the payer had, and no other account has changed.", "quantifier": "all ledgers, environments, requests, lists of extensions of any type and size up to 10 MiB", "why_tests_cant": "whether all instructions succeed depends on how the data is cut into pieces, on padding, on the growth limit of the runtime and on the rent of every intermediate size; tests mint a few small assets", "anchors": ["clients/rust/asset/src/mint.rs:306-390", "programs/asset/program/src/processor/allocate.rs:30-235", "programs/asset/program/src/processor/write.rs:28-162", "programs/asset/program/src/processor/create.rs:33-285"]}
{"id": "C53", "title": "Every regular token can be brought onto the bridge", "statement": "Create of the bridge succeeds for every non-fungible token within the rules of the token metadata program whose vault and asset addresses are unused, when the update authority signs (or the verified collection is on the bridge) and a signing wallet has the rent of the vault and of the asset. The result is an idle vault holding an asset that mirrors the token; the lamports come from the payer and no other account changes.", "quantifier": "for all tokens and their metadata, ledgers, environments, payers and both values of is_collection", "why_tests_cant": "That no admissible token is refused is a statement about all metadata and all account states; a test shows that one token gets through.", "anchors": ["programs/bridge/src/processor/create.rs:34-282", "programs/asset/program/src/processor/allocate.rs:137-211", "programs/asset/program/src/processor/create.rs:88-120"]}
{"id": "C54", "title": "The JavaScript client shows what the program stores", "statement": "Reading an asset account with the JavaScript client gives the header fields and, in order, every extension with the value the program itself reads in it; looking up an extension gives the one the program finds. The form of the data the client relies on is kept by all instructions.", "quantifier": "for all stored assets, all extension types and contents, all histories, and any text decoder", "why_tests_cant": "The two readers are written in two languages and share no code; that they agree on every account content, including old and unusual data, is a statement about all byte strings.", "anchors": ["clients/js/asset/src/hooked/internalAssetAccountData.ts:32-94", "clients/js/asset/src/extensions/index.ts:38-97", "clients/js/asset/src/extensions/properties.ts:59-166", "clients/js/asset/src/constraints/index.ts:31-178", "programs/asset/types/src/extensions/metadata.rs:30-54", "programs/asset/types/src/extensions/grouping.rs:39-54"]}
{"id": "C55", "title": "The JavaScript client writes the bytes the program reads", "statement": "The serialisers of the JavaScript client for the eleven kinds of extension write a value exactly when it can be stored (texts of at most 255 bytes, numbers in range, account selectors among the three, seeds of 32 bytes, no role None) and throw otherwise. What they write is, byte for byte, what the builders of the Rust crate write for the same value; the program reads back that value; and so does the client itself, up to decoding of texts and the default key being no key.", "quantifier": "for all values of the client's extension types and all byte strings", "why_tests_cant": "Lengths, numbers, nesting of constraints and lists of roles are unbounded; two separately written encoders have to agree on all of them, and a test compares a handful of values, mostly written and read by the same encoder.", "anchors": ["clients/js/asset/src/extensions/index.ts:38-97", "clients/js/asset/src/constraints/index.ts:31-133", "clients/js/asset/src/hooked/delegateRoles.ts:14-32", "clients/js/asset/src/hooked/nullablePublicKey.ts:12-20", "clients/js/asset/src/extensions/properties.ts"]}
{"id": "C56", "title": "Minting with the JavaScript client creates and shows the requested asset, and needs a payer", "statement": "When all instructions that the JavaScript client's `mint` builds for an unused account succeed in order, the account holds exactly the asset asked for (owner, authority, group, standard, mutability, name, extensions in the given order), and decoding it with the client shows the values of the request, with exactly the authority among the creators marked verified. With a payer and no group, values that can be stored and are acceptable and fit the standard, and enough lamports, all instructions do succeed. Without a payer in the request no mint into an unused account can succeed: the client leaves the payer out of Allocate and Create although its context has one.", "quantifier": "for every request, client context, decoding of texts, ledger and sequence of unrelated transactions in between", "why_tests_cant": "Tests mint a few small assets with a payer; the splitting of data at 850 bytes, any combination of extensions and the absence of the payer are not covered.", "anchors": ["clients/js/asset/src/mint.ts:14-40", "clients/js/asset/src/initialize.ts:14-51", "clients/js/asset/src/write.ts:30-62", "clients/js/asset/src/generated/instructions/create.ts:92-199", "clients/js/asset/src/generated/instructions/allocate.ts:72-139", "programs/asset/program/src/processor/allocate.rs:43-94", "programs/asset/program/src/processor/create.rs"]}
{"id": "C57", "title": "An update with the JavaScript client stores the requested value, whatever its length", "statement": "When all instructions that the JavaScript client's `updateWithBuffer` produces succeed in order, the asset holds the requested extension value, name and mutability and is otherwise unchanged; the temporary buffer is closed, no account but those named is touched, and no lamports are lost; and the client then shows the requested value. Short values are sent in one instruction, long ones through a buffer in chunks.", "quantifier": "every value of every extension type, every chunk size up to 1200, every asset, every ledger, with or without payer", "why_tests_cant": "The chunked path depends on the length of the value, and its defects on the bytes of the addresses in it.", "anchors": ["clients/js/asset/src/updateWithBuffer.ts updateWithBuffer", "programs/asset/program/src/processor/update.rs process_update"]}
{"id": "C58", "title": "The macros of the Rust client store the data, in calls within the limit", "statement": "`allocate_instruction_data!` yields exactly the bytes the program reads as an Allocate with these arguments; reserving space, appending the data and then calling `allocate_update_data_length!` yields the same, whatever was reserved; `AllocateCpiAccounts::invoke` invokes the same instruction as the generated builder. The calls of `allocate_and_write!` append an extension with exactly the given data (up to verified flags), and each of them stays within the limit of 1280 bytes for cross-program calls.", "quantifier": "every extension type, data, reserved length and buffer with earlier extensions", "why_tests_cant": "The macros are not used inside the repository and have no test; the split depends on the length of the data.", "anchors": ["clients/rust/asset/src/impls.rs allocate_instruction_data, allocate_update_data_length, allocate_and_write, AllocateCpiAccounts::invoke_signed"]}
{"id": "C59", "title": "The JavaScript client builds the same instructions as the Rust client", "statement": "For every instruction, the generated JavaScript builder, once the defaults are filled in (identity, payer, system program, standard, mutability), yields exactly the account list (order, addresses, signer and writable flags) and data of the Rust builder for that call; it refuses exactly the requests with a number or length that does not fit its field. The program reads the data as that instruction and takes the accounts for what they are meant to be; and what succeeds with any privileges succeeds with those the client asks for.", "quantifier": "every instruction, every combination of accounts given or left out, all arguments, every ledger", "why_tests_cant": "The tests cover few of the combinations of optional accounts, and never compare the two clients.", "anchors": ["clients/js/asset/src/generated/instructions/*.ts", "clients/js/asset/src/generated/shared/index.ts getAccountMetasAndSigners", "clients/rust/asset/src/generated/instructions/*.rs"]}
{"id": "C60", "title": "The proxy option of the JavaScript client does the same to a proxied asset", "statement": "An instruction sent with the option `proxy` of the JavaScript client to the example proxy program has the effect that the request stands for: the asset program is called with the accounts as meant, an account left out being absent.", "quantifier": "every request of a function with the option, every proxied asset, every ledger", "why_tests_cant": "There is no test of Burn, Remove, Resize or of a buffer through the proxy program.", "anchors": ["clients/js/asset/src/burn.ts burn", "clients/js/asset/src/resize.ts resize", "clients/js/asset/src/updateWithBuffer.ts updateWithBuffer", "programs/proxy/src/processor/mod.rs process_instruction", "programs/asset/interface/src/processor.rs Interface::process_instruction"]}
{"id": "C61", "title": "The builders of the interface crate ask for what a proxied asset needs", "statement": "Every instruction built by the interface crate is read by the asset program as the instruction meant, with the accounts and privileges of the client's builder plus the signature of the first account. A program that signs for the asset by a derived address and has the other privileges gets from it exactly what the instruction does with everything passed on, for proxied assets as well; without that signature the call is refused. A program with the interface passes an instruction of the Rust client on as exactly this one, Resize excepted.", "quantifier": "every call of every instruction, every ledger and calling environment", "why_tests_cant": "The crate has no tests; the example proxy program does not use its builders.", "anchors": ["programs/asset/interface/src/generated/instructions/burn.rs Burn::instruction_with_remaining_accounts", "programs/asset/interface/src/generated/instructions/update.rs UpdateCpi::invoke_signed_with_remaining_accounts", "programs/asset/interface/src/processor.rs Interface::process_instruction"]}
{"id": "C62", "title": "The clients of the bridge build what the bridge program reads", "statement": "Every Bridge and Create instruction built by the Rust client of the bridge is read by the program with the accounts meant. The privileges the client asks for suffice: with them alone the program does what it does with all privileges of the caller, and every account the program changes is one of those asked to be writable. The JavaScript client builds the same instructions with defaults filled in; the vault and asset it derives from the mint are those that Create made, and both clients read a vault as the program does.", "quantifier": "every request with any optional accounts, every ledger, environment and token metadata", "why_tests_cant": "Tests use two token standards and fixed signers; they cannot show that no privilege is missing for any branch.", "anchors": ["clients/rust/bridge/src/generated/instructions/bridge.rs Bridge::instruction_with_remaining_accounts", "clients/rust/bridge/src/generated/instructions/create.rs Create::instruction_with_remaining_accounts", "clients/js/bridge/src/generated/instructions/bridge.ts bridge", "clients/js/bridge/src/generated/instructions/create.ts create", "clients/js/bridge/src/pda.ts findBridgeAssetPda", "clients/rust/bridge/src/generated/accounts/vault.rs Vault::from_bytes"]}
{"id": "C63", "title": "An asset can be created with one instruction exactly when it is sound and paid for", "statement": "Create with all extensions in the instruction and no group, sent to an account without data, succeeds exactly when the extensions are distinct, complete, readable and acceptable from the authority, fit the standard (manager, proxy and its derived address), the account and the payer sign and are writable, the account is unused, and the payer is a wallet with the rent of at most 10 KiB. Then the asset asked for is stored without slack, the lamports of payer and asset together are unchanged and so is every other account.", "quantifier": "every input with typed extensions, every ledger and environment", "why_tests_cant": "Tests create a few assets; they do not show that nothing else is needed, or that nothing less suffices.", "anchors": ["programs/asset/program/src/processor/create.rs process_create", "programs/asset/program/src/processor/allocate.rs process_allocate", "clients/rust/asset/src/generated/instructions/create.rs Create::instruction_with_remaining_accounts"]}
{"id": "C64", "title": "The proxy program creates assets that it can serve", "statement": "A Create of the proxy program on an unused account succeeds only with the signatures of the authority and of the stub, only at the address derived from the stub with the canonical bump seed, and only with a payer; it stores exactly one asset: standard proxied, owned by the owner given, its own authority, with a counter of zero transfers, a time stamp, an image and the Proxy extension naming program, stub, bump seed and authority. An existing asset is never created again. Afterwards the proxy program reads the counter 0, signs for the asset and accepts the authority. Whoever has these signatures and a paying wallet succeeds. The JavaScript client builds this request with sufficient privileges, but without naming a payer a new asset is never created.", "quantifier": "all ledgers, accounts, names, environments, images of up to 10 MB (9834 bytes for the acceptance)", "why_tests_cant": "The claim is about every account list and every address derivation, and about the exact stored bytes; tests create a few assets with one stub each.", "anchors": ["programs/proxy/src/processor/create.rs:23-115", "programs/proxy/src/instruction.rs:10-28", "programs/proxy/src/processor/mod.rs:18-64", "clients/js/proxy/src/generated/instructions/create.ts:84-192", "clients/js/proxy/src/hooked/resolvers.ts:5-21", "clients/js/proxy/src/pda.ts:4-18"]}
{"id": "C65", "title": "An asset joins a group only with the consent of its owner or authority", "statement": "Nobody but the owner or the authority of an asset, or somebody they empowered, can put the asset into a group; in particular a stranger cannot use a group to keep the owner from transferring or burning the asset. (The code falsifies this: Create does not ask the authority of the new asset to sign, and the grouping delegate named in the data of a group may add members with the same authority. A stranger with enough lamports for a rent can therefore take any ungrouped, unproxied asset into a group of their own and lock the group.)", "quantifier": "every asset, every stranger, every history in which neither the stranger nor the authority signs", "why_tests_cant": "Needs a combination of three instructions that are each covered by tests and each behave as documented; the consequence is about all later histories.", "anchors": ["programs/asset/program/src/processor/create.rs process_create", "programs/asset/program/src/processor/group.rs process_group", "programs/asset/program/src/processor/transfer.rs process_transfer", "programs/asset/program/src/processor/burn.rs process_burn", "programs/asset/program/src/processor/mod.rs process_instruction (lock scan)"]}
{"id": "C66", "title": "The owner of a proxied asset can transfer it through the proxy program", "statement": "Whenever the owner of an unlocked asset of the proxy program sends a transfer to the proxy program, it is accepted, the recipient becomes the owner, the counter of transfers goes up by one and the asset can be transferred again; so it can pass through any chain of wallets, and afterwards the counter tells the number of transfers. (True only outside groups: the proxy program does not pass the account of the group on, so an asset in a group without royalties of its own cannot be transferred, and any stranger can bring a proxied asset into a group.)", "quantifier": "every proxied asset, every chain of wallets of fewer than 10^12 transfers, every ledger", "why_tests_cant": "The tests transfer an asset once; a chain of any length, with the size of the counter, the picture and the rent unchanged, and the missing group account are not tried.", "anchors": ["programs/proxy/src/processor/transfer.rs process_transfer", "programs/proxy/src/processor/create.rs process_create", "programs/asset/program/src/processor/transfer.rs process_transfer", "programs/asset/program/src/processor/update.rs process_update"]}
{"id": "C67", "title": "Transfers, burns, verifications and closures are accepted exactly under the stated conditions", "statement": "For a well-formed asset whose extensions can be read, Transfer succeeds if and only if the owner or a delegate with the role signs, none of the first seven accounts is a locked asset, the asset is not soulbound, its own royalties allow the transfer, and, unless the recipient already owns it, the royalties of its group (which must be passed) allow it when it has none of its own. Burn succeeds if and only if the owner or a delegate with the role signs, no locked asset is among the first seven accounts, the asset has no members, and the group of a member is passed and counts at least one member. Verify and Unverify succeed if and only if the signer is listed as a creator. Close succeeds if and only if the account signs, belongs to the program, is not an asset and is not its own recipient.", "quantifier": "every ledger, every asset stored in it, all accounts and signers", "why_tests_cant": "An exact condition needs every combination of owner, delegate, manager, lock, standard, royalties, group and extra accounts, with the effect of a locked bystander among the accounts; tests try single combinations.", "anchors": ["programs/asset/program/src/processor/transfer.rs process_transfer", "programs/asset/program/src/processor/burn.rs process_burn", "programs/asset/program/src/processor/verify.rs process_verify", "programs/asset/program/src/processor/unverify.rs process_unverify", "programs/asset/program/src/processor/close.rs process_close", "programs/asset/program/src/processor/mod.rs validate_access"]}
{"id": "C68", "title": "Every member of a group was admitted by the group", "statement": "If an initialised asset references the group g, then it was made a member by a Group instruction, or by the Create that made it, which was signed by the authority of g or by the delegate of its Grouping extension; and it has referenced g ever since. In particular nobody else can change the recorded size of a group.", "quantifier": "every history from a ledger in which the program owns nothing: any instructions by anybody on any accounts, and anything other programs do; every group and every asset", "why_tests_cant": "Tests check that a stranger's Group instruction is rejected. That no combination of Allocate, Write, Create and Burn calls gets an asset into a group takes an invariant of all histories - and there is one that does.", "anchors": ["programs/asset/program/src/processor/group.rs process_group", "programs/asset/program/src/processor/create.rs process_create", "programs/asset/program/src/processor/write.rs process_write", "programs/asset/program/src/processor/allocate.rs process_allocate", "programs/asset/program/src/processor/burn.rs process_burn"]}
{"id": "C69", "title": "Assets come into being only by Create", "statement": "If an account of the program is an initialised asset, then it was made one by a Create instruction that it signed, and has been one ever since. It has the standard that was asked for then, and if it was to be immutable also the name and the authority.", "quantifier": "every history from a ledger in which the program owns nothing: any instructions by anybody on any accounts, and anything other programs do; every account", "why_tests_cant": "Tests create assets with Create. That the first byte of an account cannot become 1 in another way is a statement about all sequences of Allocate and Write with all contents - and it is not so.", "anchors": ["programs/asset/program/src/processor/create.rs process_create", "programs/asset/program/src/processor/write.rs process_write", "programs/asset/program/src/processor/allocate.rs process_allocate", "programs/asset/types/src/state/asset.rs last_extension"]}
{"id": "C70", "title": "A search with the JavaScript client shows exactly the assets with the given attributes", "statement": "getAssetGpaBuilder().whereField(...).getDeserialized() finds exactly the stored assets that have all the given attributes (state, standard, mutability, owner, group, authority, delegate, roles, name), and shows each as it is; likewise getVaultGpaBuilder for the vaults of the bridge. Nobody can make the search of another user fail.", "quantifier": "every ledger; every list of fields and values; every list of accounts that the validator knows; every content of the accounts", "why_tests_cant": "Tests look for one freshly created asset in a clean ledger. That the offsets and encodings of the filters agree with the layout of the program for every value, and what the search does with accounts made by strangers, depends on all ledgers.", "anchors": ["clients/js/asset/src/index.ts getAssetGpaBuilder", "clients/js/bridge/src/generated/accounts/vault.ts getVaultGpaBuilder", "programs/asset/types/src/state/asset.rs Asset", "programs/asset/program/src/processor/resize.rs process_resize"]}
{"id": "C71", "title": "A property is found under its name, with its type", "statement": "Properties::get::<T>(name) gives the first value added under the name if it is of type T, and None otherwise; PropertiesMut::remove(name) removes the property.", "quantifier": "every account data with a readable Properties extension, every name, each of the types Text, Number and Boolean", "why_tests_cant": "The tests of the crate ask for each property with the type it was added with. The cast without a check of the type compiles and works in all of them; what it yields for another type depends on the neighbouring bytes of the account.", "anchors": ["programs/asset/types/src/extensions/properties.rs Properties::get", "programs/asset/types/src/extensions/properties.rs PropertiesMut::remove", "programs/asset/types/src/extensions/properties.rs Property::from_bytes", "programs/asset/types/src/state/asset.rs Asset::get"]}
{"id": "C72", "title": "The Rust client reads what the program stores", "statement": "InternalAsset::from_bytes and the types of the extensions in the Rust client (Attributes, Blob, Bucket, Creators, Grouping, Links, Manager, Metadata, Proxy) give for the account and the extension data of every asset the values that the program reads.", "quantifier": "every account content and every extension data that the program accepts", "why_tests_cant": "The client has its own, generated readers (borsh), which share no code with the program's. Tests compare a few values; agreement for all bytes, including older and unusual forms of the data, needs a proof.", "anchors": ["clients/rust/asset/src/generated/accounts/internal_asset.rs InternalAsset::from_bytes", "clients/rust/asset/src/generated/types", "clients/rust/asset/src/hooked", "programs/asset/types/src/extensions"]}
{"id": "C73", "title": "Values given in the instruction itself end up as given (JavaScript client)", "statement": "create, allocate and update of the JavaScript client serialise the values of extensions into a single instruction. When a create succeeds on an unused account, the client shows an asset with the name, owner, authority, group, standard and mutability asked for (or the defaults) and exactly the values asked for, in the order given; when an update succeeds, the asset holds the value, the name and the mutability asked for and is otherwise unchanged.", "quantifier": "every request, context, list of values and ledger in which the account is unused (create) or stores any asset (update)", "why_tests_cant": "Tests of the client create assets with one or two extensions. The order of three or more, and every combination of values, defaults and failing conditions, cannot be enumerated.", "anchors": ["clients/js/asset/src/create.ts create", "clients/js/asset/src/update.ts update", "clients/js/asset/src/allocate.ts allocate", "programs/asset/program/src/processor/create.rs process_create"]}
{"id": "C74", "title": "Every account keeps the rent for its size", "statement": "An account that holds the rent for its size before an instruction holds the rent for its new size after it, whatever the instruction does (create, allocate, write, update, remove, resize, burn, close, ...). An account that holds exactly its rent and is not named to pay or receive still holds exactly its rent. Updates, removals, resizes and writes leave in the account the rent for the new size when it shrinks and the larger of what it had and the rent otherwise; the difference is what the payer paid or received.", "quantifier": "every instruction, account list, signers, ledger whose lamports fit 64 bits, and every rent that does not fall with the size; any account of any owner", "why_tests_cant": "The size of an account changes in many places (each with lamports moved in wrapping arithmetic, before or after the bytes are moved); a test sees one size and one balance. That no path leaves an account below its rent, or takes a lamport too much, is a statement about all sizes and balances.", "anchors": ["programs/asset/program/src/processor/mod.rs resize", "programs/asset/program/src/utils.rs close_program_account", "programs/asset/program/src/processor/allocate.rs save_extension_data", "programs/asset/program/src/processor/update.rs process_update", "programs/asset/program/src/processor/create.rs process_create"]}
{"id": "C75", "title": "Memory is accessed inside the data of accounts only", "statement": "Write, Update and Remove move bytes through raw pointers, by offsets and lengths that they read from the account. On accounts that came about by using the program as intended, and when no instruction names the extension type None, no such access goes past the data of the account. All other instructions never do, whatever the accounts contain.", "quantifier": "all environments, ledgers, account lists and instructions", "why_tests_cant": "Whether an access stays inside depends on the history of the account: the sizes and order of its extensions, and what was removed, updated and resized before. Tests try single histories, and an access past the data lands in the padding behind it without any error.", "anchors": ["programs/asset/program/src/processor/remove.rs", "programs/asset/program/src/processor/update.rs", "programs/asset/program/src/processor/write.rs"]}
{"id": "C76", "title": "An instruction changes no account that it does not name", "statement": "The accounts of an instruction lie one behind the other in the memory of the program. Removing an extension moves bytes by offsets read from the account; it must not reach the account that lies behind. So every instruction has the same effect on this memory as on separate accounts, and nobody can change the asset of another by it.", "quantifier": "all environments, ledgers, account lists, instructions and loader images", "why_tests_cant": "A move past the end lands in the padding behind the data, and no test notices. It takes particular content, at particular distances, and further accounts passed to the instruction, for such a move to do damage.", "anchors": ["programs/asset/program/src/processor/remove.rs", "programs/asset/program/src/processor/resize.rs", "programs/asset/program/src/processor/mod.rs"]}
{"id": "C77", "title": "Strangers cannot change an asset", "statement": "As long as neither the owner, nor the authority, nor the delegate, nor the manager, nor a creator of an asset signs, nothing that anybody does changes the asset: owner, authority, delegate, state, standard, mutability, name and extensions stay the same, and no lamports leave the account. Only the group it belongs to may change (by those who run a group), and the number of its members if it is a group itself. The owner changes only with the signature of the owner of the time or of a delegate entitled to transfer.", "quantifier": "all ledgers, assets, and histories of instructions on any accounts, mixed with other programs", "why_tests_cant": "It is about all instructions with all account lists in all orders, signed by anybody but a few. Tests try single instructions with a wrong signer.", "anchors": ["programs/asset/program/src/processor/transfer.rs", "programs/asset/program/src/processor/update.rs", "programs/asset/program/src/processor/group.rs", "programs/asset/program/src/processor/verify.rs", "programs/asset/program/src/processor/mod.rs"]}
{"id": "C78", "title": "Removing an extension of an ordinary type touches only that asset", "statement": "The removal of an extension whose type is not None moves bytes within the account of the asset only. Whatever else is passed to the instruction and whatever the account contains, no other account changes except for the refund.", "quantifier": "all contents of accounts, types, account lists, layouts of memory", "why_tests_cant": "The move depends on a boundary read from the account. It takes an account with a particular content, brought about by an earlier removal, for the boundary to be read from the middle of a blob; tests remove one extension from a fresh asset.", "anchors": ["programs/asset/program/src/processor/remove.rs:67-140"]}
{"id": "C79", "title": "An instruction changes only the accounts it is about", "statement": "Whatever the accounts contain, well-formed or not, an instruction changes only those of its accounts that it declares writable, and data and owner only of those that it stores something in; all other accounts that are passed along stay as they are in the memory of the program. In particular strangers cannot change an asset.", "quantifier": "all instructions, account lists and account contents, in the memory of the program; for strangers all histories", "why_tests_cant": "It has to hold for contents that no correct sequence of instructions leads to, and for any accounts in any order behind the ones the instruction uses. Tests use well-formed assets and the accounts that belong to the instruction.", "anchors": ["programs/asset/program/src/processor/update.rs", "programs/asset/program/src/processor/write.rs", "programs/asset/program/src/processor/remove.rs", "programs/asset/program/src/instruction.rs"]}
{"id": "C80", "title": "Errors say what is wrong, and clients can read them", "statement": "When an instruction fails with an error of the asset program, what the error says is true of the accounts and the request: for example InvalidTransferAuthority is returned only to someone who is neither the owner nor a transfer delegate, and GroupNotEmpty only if the group has members. The number that is returned is never taken for success, determines the error, and the Rust client, the JavaScript client and both interface descriptions give it the name and the message of the program.", "quantifier": "all instructions, account lists, ledgers and errors; all 22 codes and every other number", "why_tests_cant": "Tests provoke each error in one way that is known to deserve it. That no other situation leads to the same error needs a look at every path of every instruction.", "anchors": ["programs/asset/program/src/error.rs", "programs/asset/program/src/processor/mod.rs", "programs/asset/program/src/processor/remove.rs", "clients/rust/asset/src/generated/errors/asset.rs", "clients/js/asset/src/generated/errors/asset.ts", "idls/asset_program.json"]}
{"id": "C81", "title": "The interface description is read back from the binary", "statement": "If the binary of a program holds, in its only sections .idl.type and .idl.data, references to the text of a kind (anchor or codama) and to a compressed description, then the reader returns exactly this kind and this description, whatever else the file contains. In general it returns a description exactly if all sections of the two names can be read, and it is the one of the last sections. Otherwise it reports that there is none, and it never reads bytes outside the file or the wrong bytes because a sum wraps.", "quantifier": "all files shorter than 2^64 bytes, all lists of sections whose offsets are below 2^64 - 16, all decompressors and JSON readers", "why_tests_cant": "A test embeds one description with one toolchain; that references with huge lengths, repeated sections or wrapping sums cannot lead to wrong bytes needs all files.", "anchors": ["include-idl/src/parse.rs:29", "include-idl/src/parse.rs:61", "include-idl/src/parse.rs:106", "include-idl/src/lib.rs:37", "include-idl-cli/src/main.rs:26"]}
{"id": "C82", "title": "The description in the binary describes the program", "statement": "A client that knows nothing about the program but its interface description builds, for every instruction and every choice of accounts and arguments in range, exactly what the Rust client builds, and the program decodes it as meant. Left to the defaults of the description it builds what the JavaScript client builds. Whatever it can build is a call of the Rust client. The layouts that the description gives for the data of extensions are those that the builders write. The descriptions of the interface, the bridge and the proxy agree with what their clients send in the same way.", "quantifier": "all 18 instructions, all accounts (given or left out), all arguments that fit into Borsh, all names and values that a caller may give (C82_only), all contents of six extension types", "why_tests_cant": "The description is a file that is generated once and never executed by a test; a wrong flag or width in it only shows in clients of other people.", "anchors": ["idls/asset-program.codama.json:1", "idls/asset_program.json:1", "idls/nifty_asset_interface.json:1", "idls/bridge_program.json:1", "idls/proxy_program.json:1"]}
{"id": "C83", "title": "Every way to build an instruction with the Rust clients gives the same instruction", "statement": "A builder of the Rust client or of the interface crate gives an instruction exactly if every required field was set, and then the instruction of the struct with the last value set for each field, defaults for the fields left out and the added accounts at the end. The builder for calls from another program makes the same instruction out of the same setters and hands over every account that the instruction names, so that the call does what the instruction in a transaction does.", "quantifier": "all 18 instructions of both crates of the asset program and both instructions of the bridge client, all sequences of setters with all values, all ledgers and environments", "why_tests_cant": "Tests use a few sequences of setters for a few instructions; no test of the repository adds accounts to a call from a program, which is where the property fails.", "anchors": ["clients/rust/asset/src/generated/instructions/create.rs:143", "clients/rust/asset/src/generated/instructions/create.rs:595", "clients/rust/asset/src/generated/instructions/create.rs:428", "clients/rust/asset/src/generated/instructions/write.rs:155", "clients/rust/bridge/src/generated/instructions/bridge.rs:435", "clients/rust/bridge/src/generated/instructions/create.rs:360"]}
{"id": "C84", "title": "The tests of the repository pass", "statement": "Every integration test of the JavaScript and Rust clients and every unit test of the types crate passes: each transaction goes through or fails with the error the test expects, and the accounts and values read afterwards are the expected ones.", "quantifier": "all 120 tests of clients/js/asset/test, all 8 of clients/js/proxy/test, all 10 of clients/js/bridge/test, all 15 of clients/rust/asset/tests and all 20 of programs/asset/types/src", "why_tests_cant": "The tests are run here against the model: what they expect of the real program on a validator is the only evidence in the repository about its behaviour besides its text, so that a wrong model would show as a failing test.", "anchors": ["clients/js/asset/test/create.test.ts:1", "clients/js/asset/test/update.test.ts:1", "clients/rust/asset/tests/create.rs:1", "programs/asset/types/src/extensions/metadata.rs:227"]}
{"id": "C85", "title": "The group of an asset exists", "statement": "As long as an asset references a group, the group account is an initialised asset with a Grouping extension, so that the asset can be taken out of the group, burned, and transferred under the group's royalties.", "quantifier": "all reachable ledgers, all assets", "why_tests_cant": "The group vanishes only through an interplay of four instructions (Create without the signature of the authority, Group by the delegate, Allocate and Write forging a member, and two Burns), and that it never comes back is a statement about all later histories.", "anchors": ["programs/asset/program/src/processor/burn.rs:70", "programs/asset/program/src/processor/burn.rs:102", "programs/asset/program/src/processor/ungroup.rs:37", "programs/asset/program/src/processor/transfer.rs:95"]}
{"id": "C86", "title": "Loops over the extensions of an account end", "statement": "Every instruction comes to an end: the loops that go from one extension to the next by the boundary stored in its header (search, list, last extension, validation, removal, correction of the boundaries) visit finitely many headers on every account that can come about; and so do the clients.", "quantifier": "all accounts, all instructions, all histories", "why_tests_cant": "An endless loop shows only on accounts whose headers lead backwards, which no test writes; that no account that the program itself brings about has such headers is a statement about all histories.", "anchors": ["programs/asset/types/src/extensions/mod.rs:137", "programs/asset/program/src/processor/update.rs:349", "programs/asset/program/src/processor/allocate.rs:228", "programs/asset/program/src/processor/remove.rs:74", "clients/js/asset/src/hooked/internalAssetAccountData.ts:59"]}
{"id": "C87", "title": "An instruction depends only on the accounts it names", "statement": "The outcome of an instruction (success or the error, and the accounts it leaves) is determined by the accounts it names; it neither reads nor writes any other. Hence instructions none of which writes an account that another one names can be run in any order, with the same outcome for the whole ledger.", "quantifier": "all ledgers, all instructions, all account lists, all environments, any number of instructions in any order", "why_tests_cant": "The runtime schedules transactions side by side relying on this; a test sees one order on one ledger, and a hidden dependence on an account that is not passed would show only on a ledger that differs elsewhere.", "anchors": ["programs/asset/program/src/processor/mod.rs:54", "programs/asset/program/src/entrypoint.rs:10", "programs/asset/program/src/processor/burn.rs:70", "programs/asset/program/src/processor/transfer.rs:95"]}
{"id": "C88", "title": "Only the signatures asked for matter", "statement": "More signatures or write privileges than necessary never make an instruction fail nor change what it does; privileges on accounts that it does not name do not matter; and of the signatures on those it names only these matter: the ones its documentation asks for, the payer's if the system program is passed, the group authority's if a group is passed, and that of the asset itself if it is proxied or not yet created.", "quantifier": "all ledgers, all instructions, all account lists, all sets of signers and writable accounts", "why_tests_cant": "A transaction merges the privileges of its instructions, so every instruction may run with signatures that it was never tested with; that none of the 2^7 combinations changes the outcome is a statement about all ledgers.", "anchors": ["programs/asset/program/src/processor/mod.rs:165", "programs/asset/program/src/processor/create.rs:41", "programs/asset/program/src/instruction.rs:12", "programs/asset/program/src/processor/resize.rs:42"]}
{"id": "C89", "title": "An instruction that arrives twice does no harm", "statement": "If an instruction succeeds and the same instruction arrives a second time, then the second is refused or leaves everything as the first left it.", "quantifier": "all ledgers, all instructions, all account lists, any two environments for the same program", "why_tests_cant": "A retry after a timeout is the usual way a client sends an instruction twice; whether the second run is harmless has to hold in every state, and tests rarely send anything twice.", "anchors": ["programs/asset/program/src/processor/write.rs:88", "programs/asset/program/src/processor/resize.rs:65", "programs/asset/program/src/processor/update.rs:208", "programs/asset/program/src/processor/approve.rs:59", "programs/asset/program/src/processor/group.rs:61"]}
{"id": "C90", "title": "Numbers are only read where they may lie", "statement": "Every typed view the program takes of the data of an extension begins at a multiple of the alignment of the type, both in accounts and in the arguments of an instruction, so that no instruction panics because of an address.", "quantifier": "all packed accounts, all updates, all extension data as the builders make it", "why_tests_cant": "The address of data in the arguments depends on the lengths of everything read before it; the tests never update a group or royalties together with the name.", "anchors": ["programs/asset/program/src/processor/update.rs:221", "programs/asset/types/src/extensions/grouping.rs:82", "programs/asset/types/src/extensions/royalties.rs:41", "programs/asset/types/src/extensions/properties.rs:265", "programs/asset/types/src/constraints/mod.rs:233"]}
{"id": "C91", "title": "What was done can be taken back", "statement": "Every change has an instruction that takes it back: after Lock and Unlock, a handover and the handover back, Approve and Revoke, a transfer and the transfer back, Group and Ungroup, Verify and Unverify, an added extension and its removal, replaced data and the old data, a new name and the old name, everything is as it was before.", "quantifier": "all stored assets, all accounts passed along, any two environments for the same program", "why_tests_cant": "Tests look at the fields an instruction is meant to change; that nothing else is lost on the way there and back is a statement on the whole record in every state.", "anchors": ["programs/asset/program/src/processor/transfer.rs:135", "programs/asset/program/src/processor/approve.rs:64", "programs/asset/program/src/processor/unlock.rs:66", "programs/asset/program/src/processor/ungroup.rs:97", "programs/asset/types/src/extensions/creators.rs:95"]}
{"id": "C92", "title": "Refusals, not crashes", "statement": "Whatever accounts, signatures and data it is given, an instruction is carried out or refused with an error; it does not panic, run forever, leave the memory of its accounts, or use a value its types do not have.", "quantifier": "all 18 instructions, all lists of accounts and signers, all ledgers", "why_tests_cant": "A crash needs data in an account that no test thought of; that there is none for a whole class of accounts and inputs is a statement on every slice, conversion and loop on every path.", "anchors": ["programs/asset/program/src/processor/mod.rs:161", "programs/asset/program/src/processor/transfer.rs:105", "programs/asset/program/src/processor/create.rs:151", "programs/asset/program/src/processor/write.rs:136", "programs/asset/types/src/extensions/grouping.rs:39"]}
{"id": "C93", "title": "The bytes of a constraint say one thing", "statement": "Bytes are read as a constraint exactly if they follow the grammar of constraints; no bytes say two things, no constraint is the beginning of another, and every constraint is said in exactly one way, that of the builders.", "quantifier": "all byte strings, all constraints, all transfers of assets with royalties", "why_tests_cant": "The parser is recursive with lengths at every level; tests parse what the builders wrote, while royalties can hold any bytes.", "anchors": ["programs/asset/types/src/constraints/mod.rs:233", "programs/asset/types/src/constraints/and.rs:15", "programs/asset/types/src/constraints/not.rs:16", "programs/asset/types/src/constraints/owned_by.rs:22", "programs/asset/types/src/extensions/royalties.rs:55"]}
{"id": "C94", "title": "Powers over an asset come from those who could give them", "statement": "Whatever the history: the owner of an asset got it when it was created or from the owner or delegate of the time; the authority took over from the authority of the time, who signed; each role of the delegate was approved by the owner of today, since they have it; who locked it was entitled to; verified creators signed, or were its authority when it was created; and its extension data was put there by whoever created it or by its authority.", "quantifier": "all histories of instructions by anybody, from a ledger without assets; all assets, all roles", "why_tests_cant": "Tests look at single instructions; this is about histories of any length, in which powers are given, used, taken back and passed on.", "anchors": ["programs/asset/program/src/processor/approve.rs:47", "programs/asset/program/src/processor/approve.rs:78", "programs/asset/program/src/processor/transfer.rs:70", "programs/asset/program/src/processor/transfer.rs:139", "programs/asset/program/src/processor/handover.rs:63", "programs/asset/program/src/processor/lock.rs:55", "programs/asset/program/src/processor/revoke.rs:68"]}
{"id": "C95", "title": "What is locked can be unlocked", "statement": "For every locked asset there is somebody whose signature is enough to unlock it: the delegate who has that role, or the owner if there is no delegate. The authority of the asset cannot take this away from them.", "quantifier": "all histories of instructions by anybody, from a ledger without assets; all locked assets", "why_tests_cant": "That nobody at all can unlock an asset, now or after any further instructions, is a statement about all signers and all histories; and the instruction that brings it about (an Update without data, of a type that the asset does not even have) is one that no test sends.", "anchors": ["programs/asset/program/src/processor/unlock.rs:48", "programs/asset/program/src/processor/lock.rs:48", "programs/asset/program/src/processor/update.rs:224", "programs/asset/program/src/processor/update.rs:396", "programs/asset/types/src/extensions/manager.rs:23"]}
{"id": "C96", "title": "What one owns one can burn", "statement": "The owner of an unlocked asset that is in no group and is not a group with members can burn it, and whoever they name gets all of its rent. The authority of the asset cannot take this away from them.", "quantifier": "all histories of instructions by anybody, from a ledger without assets; all unlocked assets", "why_tests_cant": "That an asset is never burned, nor ever changes hands, whatever anybody does is a statement about all signers and all histories; and no test sends an Update without data of type Grouping.", "anchors": ["programs/asset/program/src/processor/burn.rs:103", "programs/asset/types/src/extensions/grouping.rs:39", "programs/asset/program/src/processor/update.rs:222", "programs/asset/program/src/processor/transfer.rs:58"]}
{"id": "C97", "title": "What is burned stays burned", "statement": "Once an asset has been burned there is never again an asset at its address; so what one sees at an address is always the same asset, with the standard it was created with.", "quantifier": "all histories of instructions used as intended, by anybody; all addresses", "why_tests_cant": "Two looks at the same address may be arbitrarily far apart, with any instructions in between; the tests burn an asset at the end and do not come back to its address.", "anchors": ["programs/asset/program/src/utils.rs:11", "programs/asset/program/src/processor/burn.rs:115", "programs/asset/program/src/processor/create.rs:41", "programs/asset/program/src/processor/create.rs:46"]}
{"id": "C98", "title": "A member of a group can leave it", "statement": "An asset that is in an existing group can be taken out of it by those who may admit members to the group, and be burned by its owner. The authority of the group cannot make this impossible for ever.", "quantifier": "all histories of instructions by anybody, from a ledger without assets; all groups and members", "why_tests_cant": "That a member is never let go or burned, whatever anybody does to the member or to the group, is a statement about all signers and all histories of two accounts; no test sends an Update without data to a group that has members.", "anchors": ["programs/asset/program/src/processor/ungroup.rs:80", "programs/asset/program/src/processor/burn.rs:87", "programs/asset/program/src/processor/update.rs:222", "programs/asset/types/src/extensions/grouping.rs:82"]}
