# Formal model of nifty-oss/asset in Lean 4

This document says what is modelled, how each property of `properties.jsonl` is
stated and proved, and what has to be trusted.

## 1. Shape of the model

* **Bytes.** Account data is a `List UInt8`. The 168-byte asset header and the
  16-byte extension headers live at their real offsets in that list, and extension
  boundaries are absolute offsets exactly as in the Rust code. Nothing is abstracted
  into a record first, so mistakes in offsets and boundaries are visible.
* **Keys.** A public key is a 32-byte list (a subtype). `Pubkey::default()` is 32
  zero bytes, which is also the system program id.
* **Ledger.** `Ledger := Key → Account`, `Account = (lamports, data, owner)`.
  Repeated accounts in one instruction alias because they are the same key.
* **Instructions.** An instruction call has a list of account keys, a signer
  predicate and a writable predicate, plus the runtime facts the program queries
  (rent function, whether it runs under a cross-program call, program address
  derivation). These are parameters (`Env`): theorems hold for all of them.
* **Errors.** Every processor is a total function into `Except Err`. `Err` has one
  constructor per `ProgramError`/`AssetError` used, plus `panic` (slice index,
  unwrap, bytemuck cast) and `diverge` (a loop that does not terminate, which on
  chain exhausts the compute budget). A failed instruction leaves the ledger as it was.
* **Loops.** The extension walks (`while cursor + 16 <= len`) take fuel
  `data.length + 1`; running out of fuel is `Err.diverge`. Read-only walks that
  exceed this fuel revisit a cursor and therefore never terminate (proved).
* **Machine integers.** `u8` share totals and `u64` group sizes and lamports wrap
  modulo 2^8 / 2^64, because the release profile has no overflow checks. `as u32`
  truncates. `i32` deltas are modelled with their wrap.

### Files

| Lean file | Rust code |
|---|---|
| `Verif/Bytes.lean` | byte lists, little endian integers, slicing (Rust slices, `to_le_bytes`) |
| `Verif/Model/Base.lean` | errors, keys, accounts, ledger, runtime environment |
| `Verif/Model/Header.lean` | `types/src/state/{mod,asset,delegate}.rs` header fields |
| `Verif/Model/Ext.lean` | `types/src/state/asset.rs`, `types/src/extensions/mod.rs` walks |
| `Verif/Model/Constraints.lean` | `types/src/constraints/*.rs` |
| `Verif/Model/Extensions.lean` | `types/src/extensions/*.rs` readers, lifecycle, builders |
| `Verif/Model/Properties.lean` | `types/src/extensions/properties.rs` lookup by name |
| `Verif/Model/Runtime.lean` | `processor/mod.rs resize`, `utils.rs`, system program calls |
| `Verif/Model/Proc*.lean` | one definition per `processor/*.rs` |
| `Verif/Model/Program.lean` | `processor/mod.rs` dispatch, `validate_access`, histories |
| `Verif/Model/Borsh.lean` | instruction (de)serialisation of `instruction.rs` |
| `Verif/Model/Client.lean` | roles and nullable keys in the Rust and JS clients |
| `Verif/Model/Cpi.lean` | cross-program calls into the asset program |
| `Verif/Model/Interface.lean` | `programs/asset/interface/src/processor.rs` |
| `Verif/Model/InterfaceCalls.lean` | `programs/asset/interface/src/generated/instructions/*.rs` |
| `Verif/Model/Proxy.lean` | `programs/proxy/src` |
| `Verif/Model/Bridge.lean` | `programs/bridge/src/processor/bridge.rs`, `state/*.rs` |
| `Verif/Model/BridgeCreate.lean` | `programs/bridge/src/processor/create.rs`, `processor/mod.rs`, `instruction.rs` |
| `Verif/Model/BridgeClient.lean` | `clients/rust/bridge/src/generated`, `clients/js/bridge/src` |
| `Verif/Model/ProxyClient.lean` | `clients/js/proxy/src` |
| `Verif/Model/Calls.lean` | `clients/rust/asset/src/generated/instructions/*.rs`: accounts and data of each instruction |
| `Verif/Model/Mint.lean`, `Json.lean` | `clients/rust/asset/src/mint.rs` |
| `Verif/Model/Macros.lean` | `clients/rust/asset/src/impls.rs` |
| `Verif/Model/Memory.lean` | `programs/asset/program/src/processor/remove.rs`, `update.rs`, `write.rs` at the level of memory; the loader's account image |
| `Verif/Model/Errors.lean` | `programs/asset/program/src/error.rs`, `clients/rust/asset/src/generated/errors/asset.rs`, `clients/js/{asset,bridge,proxy}/src/generated/errors/*.ts`, `errors` of `idls/asset_program.json` and `idls/asset-program.codama.json` |
| `Verif/Model/Idl.lean` | `include-idl/src/{lib,parse}.rs`, `include-idl-cli/src/main.rs` |
| `Verif/Model/Codama.lean` | what a client does with a description (no code of the repository) |
| `Verif/Model/IdlFiles.lean` | `idls/*.json`, turned into Lean tables by a script |
| `Verif/Model/Builders.lean` | `clients/rust/asset/src/generated/instructions/*.rs` and `programs/asset/interface/src/generated/instructions/*.rs`: setters, builders and calls from programs |
| `Verif/Model/BridgeBuilders.lean` | `clients/rust/bridge/src/generated/instructions/*.rs`: setters, builders and calls from programs |
| `Verif/Model/Align.lean` | `types/src/extensions/{grouping,royalties,properties}.rs`, `types/src/constraints/*.rs`, `processor/update.rs`: where typed views of bytes lie |
| `Verif/Tests/Base.lean` | what a test does and expects (`Act`), and a function that plays it on the ledger |
| `Verif/Tests/Js*.lean` | `clients/js/asset/test/**/*.test.ts`, translated by a program that executes their text symbolically |
| `Verif/Tests/Rust.lean` | `clients/rust/asset/tests/**/*.rs`, by hand |
| `Verif/Tests/Types.lean` | the `#[cfg(test)]` modules of `programs/asset/types/src`, by hand |
| `Verif/Tests/Programs.lean` | `clients/js/proxy/test/*.test.ts` and `clients/js/bridge/test/*.test.ts`, by hand |
| `Verif/Model/JsTyped.lean` | `clients/js/asset/src/{create,allocate,update}.ts` |
| `Verif/Model/RustAsset.lean` | `clients/rust/asset/src/generated/{accounts/internal_asset.rs,types/*.rs}`, `src/hooked/*.rs` |
| `Verif/Model/Js.lean` | `clients/js/asset/src/{hooked,extensions,constraints}`, `generated/types` |
| `Verif/Model/JsMint.lean` | `clients/js/asset/src/{initialize,write,mint}.ts` |
| `Verif/Model/JsUpdate.lean` | `clients/js/asset/src/updateWithBuffer.ts` |
| `Verif/Model/JsCalls.lean` | `clients/js/asset/src/generated/instructions/*.ts`, `generated/shared/index.ts`, `generated/types/{extensionInput,delegateInput,strategy,…}.ts`, the option `proxy` of `src/*.ts` |
| `Verif/Model/JsSearch.lean` | `clients/js/asset/src/index.ts`, `clients/js/bridge/src/generated/accounts/vault.ts` |
| `Verif/Spec/*.lean` | small specifications used by the property statements |
| `Verif/Lemmas/*.lean` | helper lemmas |
| `Verif/Props/*.lean` | the property theorems and their non-vacuity examples |

## 2. Trusted base

* Lean's kernel and the axioms `propext`, `Classical.choice`, `Quot.sound` (a subset
  per theorem; no other axiom, no `sorry`, no `native_decide`, no `bv_decide`).
* The reading of the Rust source: each definition cites the lines it models.
* Crates that are not in the sandbox are modelled from their documented behaviour:
  * `nitrate`: account context parsing (fewer accounts than declared is
    `NotEnoughAccountKeys`; an optional account equal to the program id is absent),
    data/lamport borrow rules (a conflicting borrow is `AccountBorrowFailed`),
    `realloc` (growth over the length at instruction start is limited to 10240).
  * `podded`/`bytemuck`: fixed layout without padding, `load` reads a prefix,
    `from_bytes` needs the exact size, `cast_slice` a multiple of the size; all
    panic otherwise. **Alignment panics are modelled apart**, in `Model/Align.lean`: elsewhere
    the model may succeed where an unaligned read would panic. Safety theorems are not affected
    (C90_safe), and C51_update_aligned is the statement on Updates with these panics. All
    counterexamples use aligned offsets.
  * Addresses (`Model/Align.lean`): the data of an account begins at a multiple of 8; the heap is that of
    `solana_program` (32 KiB, handed out downwards, nothing is freed), and nothing but the arguments of the instruction
    is allocated before they are validated.
  * `borsh` 0.10 wire format.
  * Strings are byte lists. UTF-8 validity is the concrete check `validUtf8`.
  * Cross-program calls (`Model/Cpi.lean`): privileges of repeated accounts are merged, a callee
    gets no privilege its caller lacks except for derived signers, and the growth limit applies
    per call.
  * The proxy program's rendered image, hash and clock are parameters (`ProxyConsts`).
  * The umi serializers of the JS client (0.9): numbers, keys and strings throw when bytes are missing or
    a number does not fit, `bool` is the byte 1, `scalarEnum` throws outside the enum, arrays of size
    `remainder` are read to the end, null characters are removed from texts. `TextDecoder` is a parameter.
    A JavaScript string is represented by its UTF-8 bytes.
  * `kaigan` (Rust client): `U8PrefixString` must be UTF-8; `RemainderVec` reads to the end, and at a value it
    cannot read either fails or stops (both are modelled).
  * A search (`gpaBuilder` of umi, `getProgramAccounts`) returns the accounts owned by the program, among
    those the validator knows, at which every filter matches; `getDeserialized` reads all of them.
  * Token programs (`Model/Bridge.lean`): a token is represented by the account that holds it; a
    transfer needs its holder's signature. The decoder of token metadata accounts is a parameter;
    theorems on Create assume that it respects the limits of the token metadata program (`GoodToken`).
    An address derived from the bridge program signs only when that program passes its seeds.
  * The size of a transaction (`Spec/Packet.lean`) follows the documented legacy message format.
  * System program `create_account`/`transfer`: documented checks and effects.
  * Runtime: a failed instruction has no effect; bytes added by `realloc` are zero;
    accounts not writable or not owned by the program cannot be modified by it.
  * Descriptions (`Model/Codama.lean`): the meaning of the nodes of Codama's format (widths, prefixes, optional accounts replaced by
    the program id, `either`, defaults). The tables of `Model/IdlFiles.lean` were made from the JSON files by `tools/genidl.py`, which is trusted.
  * Calls from programs: `invoke_signed` needs every account of the instruction and the program among the accounts handed over (`invokeInfos`). That the account list written out in the `XCpi` structs is the one of the plain struct was compared by a script, file by file. The size of a call (`runtimeSize`) is counted as the runtime does: 34 bytes per account and the data.
  * The interface description in the binary (`Model/Idl.lean`): goblin (which sections a file has), flate2 and serde_json are
    parameters; that the linker leaves the location of the bytes in the second half of the address (`fatPointer`) and that
    locations are file offsets are facts about the toolchain; `to_lowercase` is taken on ASCII.
  * Error numbers (`Model/Errors.lean`): how solana-program turns a `ProgramError` into the value the entrypoint returns,
    and how the runtime turns it back into a custom code; `FromPrimitive` of num-derive.
  * Tests (`Tests/Base.lean`): umi and `ProgramTest` send transactions that are all or nothing, in which an account signs or is writable if some instruction says so and the payer is both; the rent of the validator; the texts it prints for the builtin errors; `t.like` compares arrays with their lengths; downloaded images are replaced by 900 bytes. For the proxy program and the bridge (`Tests/Programs.lean`) also: a derivation of addresses in which bump seed 255 never works, a stand-in for keccak, the clock as part of the test, and Token Metadata as a record of metadata and holders; the default creator of a token is the identity.
  * Memory (`Model/Memory.lean`): the loader writes the accounts of an instruction one behind the other into
    one region (head of 88 bytes, data, 10240 bytes of room, alignment, rent epoch; 8 bytes for a repeated
    account). Data growth uses that room, it is not checked by the machine, and after the instruction the
    runtime takes owner, lamports, length and data of each account from the region. (With the later
    "direct mapping" of account data this no longer holds.) `sol_memcpy_` refuses overlapping ranges. The
    program keeps the lengths of its slices apart from the region; the model reads them from the region
    after each access, which makes a difference only when an access has hit the head of an account.
* Not modelled: logging, compute metering (other than divergence), transaction
  fees and rent collection, the transaction building of the TypeScript client, the IDL generation.

## 3. Properties: how each is modelled and proved

"Clean layout" below means: the extension area is a sequence of extensions with a
known, non-`None` type, each boundary at or after the end of its data, followed by
zero bytes only.

| Id | Plan |
|---|---|
| C01 | `process_transfer`; success implies `Spec.MayAct` (owner, or governing delegate with the role). Unfold the decision, case split. |
| C02 | Same function; post state equals an explicit functional update of the ledger. |
| C03 | Induction over histories with the clean-layout invariant. For arbitrary (malformed) layouts the statement may be false; counterexample if so. |
| C04 | `validate_access` + dispatch for every account list; history theorem for owner/delegate between unlocks. |
| C05 | `process_lock`/`process_unlock` authorisation and frame. |
| C06, C07 | `process_approve`/`process_revoke`; specification in terms of role sets. |
| C08, C09 | Step lemmas for all 18 instructions, then induction over histories. |
| C10 | `process_burn` post state and authorisation. |
| C11 | Every group is consistent with the list of its members, on top of C41; one step lemma for joining, one for leaving, one for everything else; induction over histories. Fails for updates from a buffer (negation + partial). |
| C12 | Step invariant `size ≤ max`; fails for buffer updates (negation + partial). |
| C13 | `process_group`/`process_ungroup` authorisation, frame, aliasing. |
| C14 | `validate_access` for all instructions; `process_create` derivation check. |
| C15 | `process_create` post state; second initialisation impossible. |
| C16 | Fold over the creators; false because of `u8` wrap-around (negation), true modulo 256 and for totals below 256 (partial). |
| C17 | `Verify`/`Unverify` exact; false for `Create` with a non-signing authority and for buffer updates (negation + partial). |
| C18 | `on_update` of creators. |
| C19 | `on_create`/`on_update` of royalties, lifted to the processors. |
| C20 | `process_transfer` with the royalty macro. |
| C21 | Mutual induction over constraint trees against a boolean `eval`. |
| C22 | Parser/printer round trip by induction over trees. |
| C23 | Round trips by induction over lists. |
| C24 | Refinement of the byte-level update to list replacement on clean layouts. |
| C25 | Exact bytes after `Remove` at any place (`cut`). False: later boundaries are stale (negation, concrete and general); holds for the last extension, and for reading those before and the first one after (partial). |
| C26 | `resize` keeps the prefix; refinement on clean layouts. The size never ends up more than 10240 bytes above the one at the start. |
| C27 | Sum of lamports over any duplicate-free key list containing the instruction accounts. |
| C28 | `process_close`; history theorem. |
| C29 | Frame theorem over all instructions; an account that changes was passed as writable. |
| C30 | `decode (encode i) = i`, prefix-freeness. Names are exactly the texts Lean's character encoder produces. |
| C31 | Induction over the list of chunks. |
| C32 | Walks compute the abstract list on clean layouts; divergence analysis. Extensions of unknown types are skipped when reading, but `last_extension` stops at them. |
| C33 | Composition of allocations; order is changed by `swap_remove` (negation) but content is preserved as a permutation (partial). |
| C34 | False: the buffer path validates the wrong bytes (negation). Only an unfinished account of the program serves as a buffer. |
| C35 | Abstract token/asset custody model of the bridge processor; induction over histories. Vault and asset are the ones derived from the mint. |
| C36, C37 | Decision logic of the proxy program and the interface. |
| C38 | Bytes and keys: exhaustive over the byte by kernel evaluation lifted to all bytes. |
| C39 | Every instruction refines a move of an abstract asset; case analysis over all instructions. |
| C40 | Dispatch of the proxy program composed with C37; negation by a concrete stranger. |
| C41 | Invariant over all accounts: every instruction maps assets to assets (C39) and buffers to buffers or assets; induction from the empty program. Fails for Remove (negation + partial). |
| C42 | Frame theorem of each instruction (which positions can change) and the checks on each position. Fails for the buffer of Update (negation + partial). |
| C43 | Induction over the extensions and pieces with C31 for each extension and C15 for Create; sizes by arithmetic on the transaction format. |
| C44 | Writers of the client and readers of the program are inverse (C21, C22); composed with C43. |
| C45 | Evaluation of the built constraint (C20). Fails: the lists are compared with the asset (negation + partial). |
| C46 | The builders produce the encoding of C30; each processor depends only on the privileges of the accounts listed; accounts that change are among those requested as writable (frame of C29). |
| C47 | Model the bridge's Create as a sequence of calls; C31 (whole Allocates) and C15 (Create on a buffer) give the asset, the frame theorem C29 the vault. |
| C48 | Run each processor forward on a stored asset; `Spec/Accepts.lean` lists what a request needs besides the right signature. Equivalences where the converse follows directly. |
| C49 | Corollary of C48. Fails twice: a locked group, royalties emptied by an update without data (negations + partial). |
| C50 | A grammar of readable data (Spec/Readable); prove that each reader and each hook succeeds exactly on it; deduce that all extensions are readable after Create, and an invariant of the state machine for histories |
| C51 | Forward run of update, remove and resize on an account that stores an asset: the search ends, the resize has room, the move and the boundary loop stay within the account; effect from the layout lemmas. Witness for the panic with a spare byte. |
| C52 | Forward runs: Allocate, Write and Create succeed on buffers at every stage; induction over pieces and extensions; the result by C43 |
| C53 | Forward run of the bridge's Create in the callee environments, with the liveness lemmas of C52 for Allocate and Create; then C47 for the content. Converse direction: the system program refuses to create an account that has lamports. |
| C54 | Model of the umi based readers (`Model/Js`). Spec `shown`: the value of the program's reader as a JavaScript value. Each reader is shown to agree on data of today's form (`Modern`); the loop over the extensions follows `Walk`. `Modern` is an invariant of `Move`. |
| C55 | Every writer is characterised by an iff (`writes p` iff the value fits and `p` is the Rust bytes), constraints by mutual induction; roles by induction over masks below 8; reading back by C22/C23, the client's own reading by C54's lemma. |
| C56 | `pieces_mint` (shared with C43) on the calls of `jsMint`, then `jsAsset_stores` with C55 for what is shown; `pieces_mint_live` (shared with C52) for acceptance without a group; without payer the first instruction fails in `createAccount` |
| C57 | False for Creators and Royalties in chunks (negations); otherwise by splitting the list of instructions: filling the buffer (C43's lemmas), Update from the buffer (C34), Close (C28). |
| C58 | Byte equality with the wire format (C30), and the split of the data into the calls of C43. The limit by arithmetic on lengths. |
| C59 | Serialisers one by one against the borsh encoders, accounts by cases; then C46. |
| C60 | False (negations for Burn, Resize, buffers). Otherwise by C37: the accounts the asset program sees are those of the call with the proxy program in place of those left out. |
| C61 | Account lists compared with those of the client; C46 generalised to account lists that ask for more; the environment of the forwarded call shown equal to that of the built one. |
| C62 | Account lists unfolded; the processors compared in the environment restricted to the requested privileges, call by call; changed accounts traced through the calls to the asset program. |
| C63 | Forward run: the space reserved by Create is the sum of the aligned extensions whatever the order, every allocation fits into it, validation and header by the lemmas of C52. Converse from the effect lemmas of Create. |
| C64 | Run of `proxyProcess` through `create_stores` in the environment of the called program for the stored asset, `C63_accepted` for the acceptance; the stored payloads are written out in the specification. `invokeAsset_only` for the privileges. |
| C65 | Chain `C63_client`, `C48_group`, `C48_lock` for the attack; invariant `Held` over histories with `refine`, `C49_locked_group` and the inversion of Ungroup. Fails (negation for every asset + partial). |
| C66 | Forward run of the three updates (`C51_update`, same length) and the transfer (`C48_transfer`) with the privileges of the call; induction over the chain. Fails for assets in groups (negation + partial). |
| C67 | Both directions for the four processors and the lock scan of `validate_access`; the forward direction reuses the runs of C48, the other one inverts the processors. |
| C68 | Invariant over histories: a step that makes a member is Group or Create with the authority check of `process_group` passed (`joins`). Refuted without `Proper` by the forged asset of C69, universally in group, wallet and account. |
| C69 | Invariant over histories from `born_before` and `wf_steps`; the attributes by the state machine (`Alive.invariant`). The refutation is a forward run of three client calls, for every content. |
| C70 | Model of the filters (`Model/JsSearch`) over the JavaScript serializers; each filter is shown to hold of the bytes exactly when the attribute of the stored asset has the value (`filter_has`). The reading of the results is C54. The refutation is a forward run of two client calls, for every owner. |
| C71 | Model of the values with the positions their pointers lead to (`Model/Properties`); the bytes at these positions are the value (`slots_at`), by induction along the reader. |
| C72 | Model of the borsh readers (`Model/RustAsset`); each is compared with the reader of the program, by induction along the data for the repeated values. |
| C73 | Model of create.ts, allocate.ts, update.ts on top of `jsInstruction`; C59 turns the instruction into a call, C55 gives the bytes, C15/C63 what a Create stores; `createOrder` is shown to be first-then-reversed. |
| C74 | Every instruction is shown to be a sequence of five kinds of parts (bytes of the same number, resize, account created, account closed, nothing); each part keeps the rent, exactly. |
| C75 | Out-of-bounds accesses are the error `.oob` of the model. Show of each instruction that it does not end so, from the layout facts of well-formed accounts; refute the rest with two witnesses |
| C76 | Model the memory image that the loader builds from the accounts, Remove, Update and Write on that image, and the reading back by the runtime. Show that it agrees with the model by accounts while no move leaves an account; then choose the content of a blob so that Remove of type None rewrites everything up to the victim as it was and the victim as the attacker likes |
| C77 | Without the authority's signature an instruction is always `Sound`, so the refinement C39 applies unconditionally; of its moves, only those of groups are left when none of those signs who have a say. Induct over histories: the same stay entitled |
| C78 | Take the removal apart: it stays inside exactly when the boundary found is not before the offset. For the counterexample, lay out metadata, links and blob so that the stale boundary of the links points at a header inside the blob, then reuse the overwriting of C76 with another source offset. Rent along the way by C74 |
| C79 | Follow every move and copy of Update and Write in memory: the sizes they use are checked when the account is resized, so that they stay in the room of the account or the instruction fails; a copy from a buffer cannot overlap the buffer, which comes third. All other instructions agree with the rest of the model (C75, C76) |
| C80 | For every instruction, walk through the checks and show for each error that its reason holds (`Spec.Reason`, one case per error); errors of readers and of the runtime are shown not to be errors of the program. The tables are compared entry by entry |
| C81 | Reading a section is equivalent to a relation between file and bytes that is written as a concatenation (`Spec.PointsTo`); induction over the sections for the last one of each name |
| C82 | The JSON files are turned into tables by a script; a small interpreter gives them a meaning; forward lemmas per type, inversion lemmas per node for `C82_only` |
| C83 | One record of fields for all builders; the value of a field after all setters is that of the last one that sets it, proved once for every field; then each kind of instruction by simplification |
| C84 | The tests as lists of acts, those of the JavaScript client translated by a program, the others by hand; a function plays them on the ledger of the model; each is one kernel computation |
| C85 | Chain `taken_in` (first part of C65), `C68_shrink` and `C48_burn` for the attack; `Hollow` and `Orphaned` are invariants of all histories without the signature of the group's key, by `C42_signed_partial`, `C10_burn` and `refine`. Fails (negation for every asset + partial). |
| C86 | Define `Halts` (the headers end) and show by counting offsets that every loop of the model with its fuel ends on such accounts; well-formed accounts are such; Write, Create and Update are followed through their changed data. Fails (negation + partial). |
| C87 | For every function of the model that takes a ledger: on a ledger merged from two it does the same as on the first and leaves the accounts of the second alone (naturality); then the diamond by cases on the address, and the schedule by induction over the permutation. |
| C88 | An order on outcomes (what one accepts the other accepts alike), shown for every function that takes the environment; for the runtime's check, the effect of an instruction on accounts that are debited or get data. |
| C89 | Each processor twice on its own result, by the lemmas on setting header fields; for extensions the moves of C39 are idempotent (flags, creators, members); three witnesses against the rest. |
| C90 | A list of the views with alignment over 1 per type (`views`), the offsets of packed extensions modulo 8, the constraint builders by induction, and the addresses of the allocator for the arguments of Update; witnesses by evaluation. |
| C91 | Header fields: writing back what was there, by injectivity of the view of the header; extensions: the moves of C39 composed, with the list operations `setExt` and `removeExt`; four witnesses. |
| C92 | `Tame`: no error is a crash; kept by `bind`. Each processor is tame by the layout of the stored asset (as in C39), each hook by C36 and C50, Allocate, Write and Create by the layout of buffers; witnesses for the crashes. |
| C93 | Mutual induction over an inductive grammar in one direction, over the fuel of the parser in the other; uniqueness from the parser being a function; a witness with spare bytes. |
| C94 | Induction over the history for any predicate on assets: the step at which it began to hold is a Create or a move of the state machine (C39); one case analysis for each field. |
| C95 | Origin of a predicate (as C94) for 'locked, and nobody may unlock'; invariant of immutable assets; acceptance of Update and Unlock (C48, C51) for the counterexample and the repair. |
| C96 | Acceptance of Burn without looking at the manager; origin of a predicate (as C94) for unreadable Grouping data; invariant of immutable assets (as C95). |
| C97 | Induction over histories: an asset stays or is burned (the moves of C39 keep the standard); after a burn `created` (C69) gives the Create; acceptance of Create (C63) for the reuse. |
| C98 | Invariant of two accounts (the group as in C96, the member by the moves of C39); acceptance of Update (C51) for the attack and of Ungroup (C48) for the rest. |

Findings (places where the code does not have the property) are listed in section 4
as they are proved.

## 4. Disagreements between code and properties

Each row names a kernel-checked witness: a concrete ledger, an instruction that the model
accepts, and the outcome.

| Property | What the code does | Witness | What is proved instead |
|---|---|---|---|
| C03, C04 | Remove leaves a stale boundary; a later Update of another extension walks into the free space, takes the boundary zero for an address and adds to the owner field. Works on soulbound and on locked assets | `C03_false`, `C04_false` | well-formed accounts, histories without the two corrupting steps; from genesis for instructions used as intended |
| C08 | extensions can be led into the header, where Verify writes a flag into the name of an immutable asset; a nested Grouping extension makes another one appear | `C08_false`, `C08_extensions_false` | well-formed accounts (any history); from genesis after instructions used as intended |
| C09, C28 | Write accepts more data than announced, so forged extension headers survive Create; an Update then changes the authority field, or cuts the account below the size of an asset | `C09_false`, `C28_false` | as C03 |
| C11, C12 | an Update from a buffer of Grouping data sets any size, also above the limit | `C11_false`, `C12_false` | histories of instructions used as intended that do not blank the Grouping data |
| C14 | an Update that gives no data blanks the Proxy extension, so the stored seeds no longer derive the asset address | `C14_derivation_false` | the check at creation, the signature rule for every instruction, and persistence along histories without such updates |
| C16 | shares are added in a `u8`: 200 + 156 percent is accepted; a data-less Update skips the check | `C16_false`, `C16_blank_false` | the sum is 100 modulo 256 |
| C17 | Create marks the authority as verified without its signature; flags in a buffer are reset at the wrong place | `C17_create_false`, `C17_buffer_false` | every other instruction needs the creator's signature |
| C18 | an Update of length zero without data drops all verified creators | `C18_false` | updates with data keep verified creators |
| C22 | `Not::as_bytes` writes the operand header twice | `C22_as_bytes_not_is_wrong` | round trip of the builders; `as_bytes` on trees without `Not` |
| C24 | an Update of type `None` is accepted when the account has spare bytes, and corrupts the area | `C24_none_type_corrupts` | all other types |
| C25 | Remove leaves the boundaries of the following extensions stale; an empty last extension cannot be removed | `C25_false`, `C25_lost`, `C25_empty_last_stays` | Remove of the last extension, or of the last but one without spare bytes; the neighbours are always read |
| C31 | for Creators the last Write clears the verified flags, a one-shot Allocate does not | `C31_false` | all other types; Creators up to the flags |
| C33 | `swap_remove` changes the order of the extensions | `C33_false` | content, and the actual order |
| C34 | the validation of buffer data starts 16 bytes early, at the extension header | `C34_false_rejects`, `C34_false_accepts` | Bucket; what is stored, for all types but Creators; royalties never pass |
| C35 | a token can be sent straight to an idle vault, which then holds both, with no way out; a transfer delegate of the asset can bridge it back and receives the token | `C35_both_false`, `C35_stuck`, `C35_delegate_false` | the vault always holds at least one of the two, as its state says; each call toggles and moves both |
| C37 | the interface refuses Resize | `C37_false`, `C37_resize_false` | every other instruction is forwarded unchanged |
| C38 | the JS client cannot encode the role list `[None]` that it decodes | `C38_js_false` | the Rust client; the JS client on every other byte |
| C40 | the proxy program signs for the asset on every forwarded instruction, so a stranger can take the authority or remove extensions | `C40_false`, `C40_false_remove` | exactly what is forwarded; the authority's signature when the asset is not its own authority |
| C41 | after removing an extension that is not the last, the account is no longer well-formed | `C41_false` | histories of instructions used as intended |
| C42 | Update takes its data from a buffer that did not sign, and overwrites it; Burn does not check what kind of account the group is, so that the burn of a forged member changes a buffer with Grouping data | `C42_false`, `C42_burn_false` | all positions but the buffer of Update and the group of Burn |
| C45 | the client checks allowlists and denylists against the asset itself, not the recipient | `C45_false` | what the lists check |
| C47 | verified flags of the token's creators are dropped, and the update authority is marked as a verified creator of the asset even if it is not verified on the token and, for items of a bridged collection, did not sign | `C47_flags_false` | everything else of the token is mirrored (`Mirrors`) |
| C49 | The lock scan of mod.rs:189-204 looks at all accounts, and Transfer and Burn of a member need the group account (unless the member has royalties of its own, for Transfer). The owner of the group asset may lock it. | `C49_false`, `C49_false_royalties` | `C49_transfer_partial` (unlocked group, readable royalties) and `C49_locked_group` (a locked group always blocks) |
| C50 | Update without data replaces an extension by empty data that cannot be read | `C50_false` | exact acceptance of all other data, `C50_created`, and `C50_history_partial` |
| C51 | update.rs:347-354 walks to the end of the account instead of the last extension, so spare bytes (left by Resize) make updates panic | `C51_false`: one spare byte | acceptance when nothing stands in the way (`Unobstructed`), and that exactly these conditions suffice |
| C53 | The vault and the asset are created with `system_instruction::create_account` alone (bridge processor/create.rs:150, asset processor/allocate.rs:170 and create.rs:98), which refuses accounts with lamports. Whoever sends lamports to the vault or asset address of a token keeps it off the bridge; nobody holds a key for these addresses, so the lamports cannot be moved away. | `C53_false`: one lamport on the vault address, no Create succeeds | `C53_create` for addresses without lamports |
| C54 | The client throws on Metadata of three strings ending at a multiple of 8, on Grouping of 16 bytes and on 1 to 15 spare bytes. It shows false for a boolean stored as 2, and the image of replaced Metadata that is no longer part of the data. | `C54_false`, `C54_stub_throws` | Agreement for data of today's form, and that instructions keep the form. |
| C56 | JavaScript `mint`, `initialize` without `payer`: Allocate and Create get no payer although the context has a default one, so they fail on an unused account | any request without payer | `C56_no_payer` |
| C57 | an update through a buffer changes a byte of every creator's address, rejects all royalties, and fails without an explicit payer | `C57_false`, `C57_royalties`, `C57_no_payer` | all other types; Creators up to these bytes |
| C58 | by its own count a full Write of `allocate_and_write!` has 1284 bytes, 4 more than the limit it is made for; the runtime does not count the prefix of the account list, so nothing goes wrong | `C58_own_count_false` | `C58_limit`: every call is within the limit as the runtime counts |
| C60 | through the proxy program a Burn without recipient would pay the proxy program, and fails; Resize and buffers are refused, extensions ignored | `C60_false`, `C60_burn_refused`, `C60_resize_refused`, `C60_buffer_refused`, `C60_extension_ignored` | the other instructions |
| C64 | `create` of the JavaScript proxy client has no default for the payer although the program needs one for a new asset, and then leaves out the system program too | `newProxied none` | `C64_js_payer`: without a payer the request always fails on an unused account |
| C65 | create.rs does not require `authority` to sign, group.rs:60-110 lets the delegate named in the group's data add assets with the same authority | `C65_anyone` (every asset), `C65_permanent`, `C65_false` | `C65_joined_partial`, `C65_released` |
| C66 | proxy/src/processor/transfer.rs:114-118 calls Transfer without the group account | `C66_grouped` (every asset in a group without own royalties), `C66_false` | `C66_transfer_partial`, `C66_chain_partial` |
| C68 | Anybody can make a member of any group, and by burning forged members lower the recorded size of any unlocked group to zero for free; then genuine members cannot be burned, and Ungroup sets the size to 2^64 - 1. | `C68_false`, `C68_anyone`, `C68_shrink`, `C68_drain`, `C68_stuck` | `C68_admitted_partial`: the claim when instructions are used as intended. |
| C69 | A Write beyond the announced length can plant an extension header whose boundary is 0; the next Allocate then writes its header and data at the beginning of the account, so that the account is an initialised asset of any content (verified creators, any authority and group) without Create. By one transfer more it becomes a copy of any immutable asset that only its address and its owner tell from the original. | `C69_false`, `C69_anything`, `C69_counterfeit`, `C69_copy`, `C69_perfect` | `C69_created_partial`, `C69_standard_partial`: the claim when instructions are used as intended. |
| C70 | The search throws when one of the accounts found cannot be read. Anybody can create an asset for any owner and append a byte with Resize: then no search for the assets of that owner succeeds. Without the discriminator the accounts of mints under way have the same effect. | `C70_false`, `C70_break`, `C70_unfinished` | `C70_exact`, `C70_vault`: what is found; `C70_search_partial`: the claim when all assets found can be read. |
| C71 | `Properties::get::<T>` casts the value found to `T` without checking the type: a boolean read as a number is made of the neighbouring bytes, other confusions are undefined behaviour, from safe code. A stored boolean may be any byte; reading it is undefined. `PropertiesMut::remove` does not change the account. | `C71_false`, `C71_boolean_as_number`, `C71_number_as_boolean`, `C71_undefined`, `C71_remove_stays` | `C71_typed`, `C71_absent`, `C71_built`, `C71_remove`: the claim when the type is right. |
| C72 | The Rust client cannot read Metadata of three texts and Grouping of 16 bytes, which the program accepts and reads; attributes after one that is not UTF-8 are dropped or make the reading fail. | `C72_false` | The exact condition for each type: `C72_header`, `C72_pairs`, `C72_metadata`, `C72_grouping`, … |
| C73 | `process_create` takes the extensions of the instruction with `swap_remove(0)`, so that three or more are not stored in the order given (and the client shows them in another order than after a `mint` with the same request). | `C73_false`: attributes, creators, royalties are shown as attributes, royalties, creators. | `C73_order`, `C73_create_partial`, `C73_same`: same values, in the order first, last, …, second. |
| C75 | (47) Remove with the type None finds the zeroed header in the spare bytes of an asset, whose boundary is 0, and moves the whole content of the account to that place, past its end. (48) Removing an extension leaves the boundaries of those behind it as they were; an update that grows the last one up to exactly its old boundary does not resize the account and copies past its end | `C75_false`, `C75_stale` | No access outside on well-formed accounts when the type None is not named |
| C76 | (49) By (47), Remove with the type None moves the content of the account to the place behind it, over the accounts that lie there. Whoever mints an asset with a blob of suitable content and extends it by 24 bytes can overwrite the data of any asset, for example its owner. The limits are those of memory: the blob holds what lies between, about 10 KB per account | `C76_false`, `C76_theft` | Instructions on memory agree with those on accounts when no move leaves an account |
| C77 | By (49), strangers overwrite the asset of another | `C77_false` | Strangers change nothing but the group, as long as no instruction moves bytes past the data of an account |
| C78 | (50) The type None is not needed for (49). A removal leaves stale boundaries (C25); the next search follows one of them into the content of a blob, and takes what it finds there for a header. One whose boundary lies before its offset makes Remove overwrite other accounts | `C78_false`, `C78_theft` | Removals stay inside the account when the extension found does not end before it starts |
| C79 | Remove changes accounts behind the one it is about (49, 50) | `C79_false` | All other instructions, whatever the accounts contain |
| C80 | Remove says ExtensionNotFound although the extension is there (as in C25) | `C80_false` | All other errors of all instructions; the exception is exactly characterised |
| C81 | `parse_idl_from_program_binary` returns a `Result` but unwraps everything it reads, so that an unknown kind, a cut section or one more broken section crashes the tool | `C81_false` | When exactly it panics (`C81_crash`), and everything else |
| C82 | The description in the binary is not self-contained: an asset account and the extensions Grouping, Manager and Proxy contain types that exist only in hand-written code of the JavaScript client, Royalties and Properties are missing | `C82_incomplete` | Everything about instructions, and the six other extension types |
| C83 | `add_remaining_account(account, is_writable, is_signer)` of the builders for calls from a program stores the flags in this order, and `invoke_signed_with_remaining_accounts` reads the first as `is_signer` and the second as `is_writable`: a writable account is passed on as a signer that is not writable. The system program of Write has a default in one builder and is required in the other | `C83_flags_false`, `C83_write_false` | The call is refused whenever such an account does not sign (`C83_refused`); for equal flags both builders agree |
| C62 | the descriptions of the accounts in the bridge's instruction enum and in both clients say that the addresses are derived from `nifty::bridge::asset` and `nifty::bridge::vault`; program and clients use `asset` and `vault` | `C62_described_seeds_false` | `C62_seeds` |
| C85 | The size of a group can be lowered with forged members (C68), and a group of size 0 can be burned while it still has members; Ungroup, Burn and Transfer of the members need the group account | `C85_anyone` (every asset), `C85_stuck`, `C85_forever`, `C85_false` | `C85_exists_partial`: the claim when instructions are used as intended |
| C86 | Boundaries are taken from the account unchecked; the length given to Allocate may be up to 2³² - 1 and the boundary is cut to 32 bits; Update walks over spare bytes as if they were headers | `C86_false`, `C86_spare`, `C86_spare_false`, `C86_hang` | `C86_steady_partial`, `C86_history_partial`: instructions used as intended, and updates of assets without room for a header behind the extensions, end |
| C89 | Sending an instruction twice is not always harmless. A chunk written twice is appended twice: of a 4-byte extension with the chunks `[1,2]`, `[3,4]` a repeated first chunk leaves `[1,2,1,2]`, complete and accepted. Resize extends twice. An Update from a buffer writes the size of the group over the type in the header of the buffer, and a second Update takes the extension to be another one. |
| C90 | Update validates data in its arguments where the allocator has put it. With the allocator of Solana programs, data for a group or royalties is at a multiple of 8 only if the lengths of the new name and of the data add up to one; otherwise `bytemuck::from_bytes_mut::<u64>` panics. So a group cannot be renamed and changed in one instruction, unless the new name has 8, 16, 24 or 32 bytes. `Number::deref` of a property makes a `&u64` of an address that is rarely a multiple of 8, which is undefined behaviour. |
| C91 | Some changes cannot be taken back. A transfer there and back leaves the asset without its delegate, a second approval forgets the first delegate, and an authority that is taken out of the list of creators and brought back counts as verified. | `C91_transfer_false`, `C91_approve_false`, `C91_verify_false`, `C91_creators_false` | Lock, unlock, handover, grouping, renaming and additions can be taken back; approvals and transfers of assets without delegate |
| C92 | Accounts of the program with one or two bytes, an empty account of the program as the group of a transferred asset, data that cannot be read and royalties with a selector above 2 make the program crash instead of returning an error. | `C92_short_false`, `C92_group_false`, `C92_data_false`, `C92_boundary_false`, `C92_selector_false` | Instructions that bring readable data return errors (`C92_steady_partial`) |
| C93 | Bytes behind the operand of Not, in Empty, and behind the whole constraint are not looked at: different data of royalties mean the same. | `C93_false` | What the bytes say (`C93_reads`), and that the builders give the shortest (`C93_built`, `C93_shortest`) |
| C94 | By Allocate and Write one can make assets with any authority, and be their delegate with all roles, though nobody approved it (see C69). | `C94_anyone`, `C94_false` | Where owner, authority, delegate, lock, verified creators and data come from in histories of instructions used as intended |
| C95 | An Update without data adds an empty Manager extension to an asset of any standard; if the asset is locked, its authority can keep it locked for ever that way. | `C95_anyone`, `C95_forever`, `C95_false` | Which assets can be unlocked (`C95_open`), who prevented it otherwise (`C95_closed_partial`), and `C95_repair` |
| C96 | An Update without data adds an empty Grouping extension to an asset that is not immutable, after which Burn panics for everybody; its authority can prevent the owner from ever recovering the rent. | `C96_anyone`, `C96_forever`, `C96_false` | Burns by the owner are accepted while the data can be read (`C96_burn_partial`), and that is so after histories without such updates (`C96_history_partial`) |
| C97 | A burned asset leaves no mark at its address: the holder of its key can create another asset there, of another standard and for another owner. | `C97_reuse`, `C97_false` | `C97_same_partial`: only after a burn, and with the signature of the address |
| C98 | An Update without data empties the Grouping data of a group with members; together with making the group immutable it keeps the members in the group, unburnable, for ever. | `C98_anyone`, `C98_forever`, `C98_false` | `C98_leave_partial` while the data of the group can be read, and `C98_history_partial` |

C18, C49, C50, C95, C96 and C98 have a common cause: an Update that names an extension but brings no data skips
the validation (update.rs:222-240), and the empty data is stored. Validating the empty data like any other
would refuse these updates for Grouping, Royalties, Manager and Proxy (`C50_fix`);
for Creators the rule about verified creators (C18) would apply. The theorems `C50_history_partial`,
`C96_history_partial` and `C98_history_partial` are about histories without them.

The history theorems (C03, C04, C09, C28, C39) leave out the two steps shown to corrupt the
extension area: Update of type `None` and Remove of an extension that is not the last.

Theorems with the suffix `_partial` cover less than the English property. C08 assumes
that the extension area can be read (`Stores`). The transfer part of C36 assumes the
same, and its counter wraps at the end of the signed 64-bit range.

## 5. Wrong programs

`seeded/LOG.jsonl` records the attempts to break the theorems: one edit of one definition of the
model per line, tried in a copy outside this directory. A proof that no longer goes through is
replaced by a gap in the copy, the build is continued, and at the end every property theorem whose
proof rests on a gap is listed under `failed`; `proofs_broken_directly` lists the gaps themselves. A
helper lemma shared by many properties therefore makes all of them appear, including some that are
still true of the wrong program: what counts is whether the properties named under `claim` are
among them and, in case of doubt, whether the broken lemma states what the edit destroyed. Where a
claim survived, `note` says why and `tightened` names the theorems that were added or sharpened.
