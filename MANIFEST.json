{
 "claims": [
  {
   "property": "C01",
   "status": "proved",
   "theorems": [
    "Verif.Props.C01_transfer_authorised",
    "Verif.Props.C01_manager_overrides_holder_delegate"
   ],
   "note": ""
  },
  {
   "property": "C02",
   "status": "proved",
   "theorems": [
    "Verif.Props.C02_transfer_effect"
   ],
   "note": ""
  },
  {
   "property": "C03",
   "status": "partial",
   "theorems": [
    "Verif.Props.C03_transfer_fails",
    "Verif.Props.C03_soulbound_partial",
    "Verif.Props.C03_soulbound_immutable",
    "Verif.Props.C03_false",
    "Verif.Props.C03_genesis_partial"
   ],
   "note": "Well-formed accounts (Stores), histories without the two things the program gets wrong (Sound: Update of type None, Remove of an extension that is not the last). Transfer fails on any soulbound asset; immutable soulbound assets need no restriction on the history. False in general: C03_false: Remove and Update change the owner of a soulbound asset. The _genesis theorems start from an empty program and assume nothing about accounts (instructions used as intended, C41)."
  },
  {
   "property": "C04",
   "status": "partial",
   "theorems": [
    "Verif.Props.C04_rejected",
    "Verif.Props.C04_frozen_partial",
    "Verif.Props.C04_not_burned",
    "Verif.Props.C04_false",
    "Verif.Props.C04_genesis_partial"
   ],
   "note": "The rejection is proved for every account list and any content (C04_rejected). History: Well-formed accounts (Stores), histories without the two things the program gets wrong (Sound: Update of type None, Remove of an extension that is not the last). False in general: C04_false: the same for a locked asset. The _genesis theorems start from an empty program and assume nothing about accounts (instructions used as intended, C41)."
  },
  {
   "property": "C05",
   "status": "proved",
   "theorems": [
    "Verif.Props.C05_lock",
    "Verif.Props.C05_unlock"
   ],
   "note": ""
  },
  {
   "property": "C06",
   "status": "proved",
   "theorems": [
    "Verif.Props.C06_approve",
    "Verif.Props.C06_is_delegate",
    "Verif.Props.C06_default_key_is_no_delegate"
   ],
   "note": ""
  },
  {
   "property": "C07",
   "status": "proved",
   "theorems": [
    "Verif.Props.C07_revoke"
   ],
   "note": ""
  },
  {
   "property": "C08",
   "status": "partial",
   "theorems": [
    "Verif.Props.C08_immutable_partial",
    "Verif.Props.C08_shape",
    "Verif.Props.C08_false",
    "Verif.Props.C08_extensions_false",
    "Verif.Props.C08_genesis_partial"
   ],
   "note": "For accounts with a packed extension area (Stores); no restriction on the history. Missing: immutable accounts with a malformed extension area. False in general: C08_false and C08_extensions_false: an immutable asset with forged extension headers. The _genesis theorems start from an empty program and assume nothing about accounts (instructions used as intended, C41)."
  },
  {
   "property": "C09",
   "status": "partial",
   "theorems": [
    "Verif.Props.C09_handover",
    "Verif.Props.C09_only_handover_partial",
    "Verif.Props.C09_history_partial",
    "Verif.Props.C09_false",
    "Verif.Props.C09_genesis_partial"
   ],
   "note": "Well-formed accounts (Stores), histories without the two things the program gets wrong (Sound: Update of type None, Remove of an extension that is not the last). False in general: C09_false: an Update of a forged extension changes the authority. The _genesis theorems start from an empty program and assume nothing about accounts (instructions used as intended, C41)."
  },
  {
   "property": "C10",
   "status": "proved",
   "theorems": [
    "Verif.Props.C10_burn"
   ],
   "note": ""
  },
  {
   "property": "C11",
   "status": "partial",
   "theorems": [
    "Verif.Props.C11_census_partial",
    "Verif.Props.C11_step_partial",
    "Verif.Props.C11_member_partial",
    "Verif.Props.C11_false"
   ],
   "note": "False in general: an Update from a buffer of Grouping data sets any size (C11_false). Proved from genesis, and from any consistent ledger, for all histories of instructions used as intended (Proper, see C41) that do not blank the Grouping data with an Update without data; it is assumed that no group reaches 2^64 members."
  },
  {
   "property": "C12",
   "status": "partial",
   "theorems": [
    "Verif.Props.C12_full",
    "Verif.Props.C12_full_create",
    "Verif.Props.C12_update",
    "Verif.Props.C12_limit_partial",
    "Verif.Props.C12_members_partial",
    "Verif.Props.C12_false"
   ],
   "note": "Full for Group, Create and Update with data on well-formed groups (C12_full, C12_full_create, C12_update). The history claim is false because of updates from a buffer (C12_false) and proved under the conditions of C11 (C12_limit_partial, C12_members_partial)."
  },
  {
   "property": "C13",
   "status": "proved",
   "theorems": [
    "Verif.Props.C13_group",
    "Verif.Props.C13_ungroup"
   ],
   "note": ""
  },
  {
   "property": "C14",
   "status": "partial",
   "theorems": [
    "Verif.Props.C14_signature",
    "Verif.Props.C14_created",
    "Verif.Props.C14_history_partial",
    "Verif.Props.C14_unsigned_partial",
    "Verif.Props.C14_derivation_partial",
    "Verif.Props.C14_derivation_false"
   ],
   "note": "Signature and creation are proved for every account. The derivation check is not repeated by a data-less Update: C14_derivation_false."
  },
  {
   "property": "C15",
   "status": "proved",
   "theorems": [
    "Verif.Props.C15_create",
    "Verif.Props.C15_exact",
    "Verif.Props.C15_once"
   ],
   "note": ""
  },
  {
   "property": "C16",
   "status": "partial",
   "theorems": [
    "Verif.Props.C16_exact_partial",
    "Verif.Props.C16_create_partial",
    "Verif.Props.C16_update_partial",
    "Verif.Props.C16_history_partial",
    "Verif.Props.C16_false",
    "Verif.Props.C16_blank_false"
   ],
   "note": "The shares are summed modulo 256 (C16_false: shares of 200 and 156 percent are accepted), and a data-less Update skips the check (C16_blank_false). Proved: the sum is 100 modulo 256 after Create and Update with data, and along histories without updates from buffers."
  },
  {
   "property": "C17",
   "status": "partial",
   "theorems": [
    "Verif.Props.C17_consent_partial",
    "Verif.Props.C17_verify",
    "Verif.Props.C17_create_partial",
    "Verif.Props.C17_create_false",
    "Verif.Props.C17_buffer_false"
   ],
   "note": "Verify and Update need the creator's signature. False for Create (C17_create_false: the authority is marked without having signed) and for an Update from a buffer (C17_buffer_false)."
  },
  {
   "property": "C18",
   "status": "partial",
   "theorems": [
    "Verif.Props.C18_update_partial",
    "Verif.Props.C18_false"
   ],
   "note": "False for an Update without data, which clears the whole list (C18_false); proved for updates with inline data."
  },
  {
   "property": "C19",
   "status": "proved",
   "theorems": [
    "Verif.Props.C19_create",
    "Verif.Props.C19_history"
   ],
   "note": ""
  },
  {
   "property": "C20",
   "status": "proved",
   "theorems": [
    "Verif.Props.C20_own",
    "Verif.Props.C20_group",
    "Verif.Props.C20_readable",
    "Verif.Props.C20_stored"
   ],
   "note": ""
  },
  {
   "property": "C21",
   "status": "proved",
   "theorems": [
    "Verif.Props.C21_verdict_is_formula",
    "Verif.Props.C21_decides_when_scoped",
    "Verif.Props.C21_error_only_when_unscoped",
    "Verif.Props.C21_only_error_is_missing_account"
   ],
   "note": ""
  },
  {
   "property": "C22",
   "status": "proved",
   "theorems": [
    "Verif.Props.C22_parse_build",
    "Verif.Props.C22_parse_build_prefix",
    "Verif.Props.C22_build_injective",
    "Verif.Props.C22_parse_terminates",
    "Verif.Props.C22_as_bytes_partial",
    "Verif.Props.C22_as_bytes_not_is_wrong"
   ],
   "note": "The builders and the parser are inverse. The separate as_bytes accessor of Not is wrong; C22_as_bytes_not_is_wrong is the witness and C22_as_bytes_partial covers the rest."
  },
  {
   "property": "C23",
   "status": "proved",
   "theorems": [
    "Verif.Props.C23_pairs",
    "Verif.Props.C23_attribute_lookup",
    "Verif.Props.C23_blob",
    "Verif.Props.C23_bucket",
    "Verif.Props.C23_metadata",
    "Verif.Props.C23_properties",
    "Verif.Props.C23_creators",
    "Verif.Props.C23_grouping",
    "Verif.Props.C23_royalties",
    "Verif.Props.C23_manager",
    "Verif.Props.C23_proxy",
    "Verif.Props.C23_long_string_is_lost"
   ],
   "note": ""
  },
  {
   "property": "C24",
   "status": "partial",
   "theorems": [
    "Verif.Props.C24_update_inline_partial",
    "Verif.Props.C24_readers",
    "Verif.Props.C24_update_header",
    "Verif.Props.C24_none_type_corrupts"
   ],
   "note": "False for type None: C24_none_type_corrupts. Proved for inline data of any other type on packed extension areas (Stores); an account with gaps between extensions is repacked only from the updated extension on. Updates from a buffer: see C34."
  },
  {
   "property": "C25",
   "status": "partial",
   "theorems": [
    "Verif.Props.C25_remove_last_partial",
    "Verif.Props.C25_cut",
    "Verif.Props.C25_neighbours_partial",
    "Verif.Props.C25_lost",
    "Verif.Props.C25_last_two_partial",
    "Verif.Props.C25_protected",
    "Verif.Props.C25_false",
    "Verif.Props.C25_empty_last_stays"
   ],
   "note": "False in general: C25_false removes the first of three extensions and the third can no longer be read; C25_lost shows this for every asset whose extensions after the neighbour take up no more room than the one removed. C25_cut gives the exact bytes for every Remove. Proved: the last extension (C25_remove_last_partial), the last but one without spare bytes (C25_last_two_partial), and in every case the extensions before and the first one after (C25_neighbours_partial)."
  },
  {
   "property": "C26",
   "status": "proved",
   "theorems": [
    "Verif.Props.C26_resize",
    "Verif.Props.C26_limit",
    "Verif.Props.C26_readers"
   ],
   "note": ""
  },
  {
   "property": "C27",
   "status": "proved",
   "theorems": [
    "Verif.Props.C27_conserved",
    "Verif.Props.C27_who_pays"
   ],
   "note": ""
  },
  {
   "property": "C28",
   "status": "partial",
   "theorems": [
    "Verif.Props.C28_close",
    "Verif.Props.C28_asset_not_closed",
    "Verif.Props.C28_only_burn_partial",
    "Verif.Props.C28_only_burn_immutable",
    "Verif.Props.C28_false",
    "Verif.Props.C28_genesis_partial"
   ],
   "note": "Close is proved for any content. History: Well-formed accounts (Stores), histories without the two things the program gets wrong (Sound: Update of type None, Remove of an extension that is not the last). False in general: C28_false: an Update of a forged extension cuts the account. The _genesis theorems start from an empty program and assume nothing about accounts (instructions used as intended, C41)."
  },
  {
   "property": "C29",
   "status": "proved",
   "theorems": [
    "Verif.Props.C29_not_passed",
    "Verif.Props.C29_data_positions",
    "Verif.Props.C29_other_programs",
    "Verif.Props.C29_writable",
    "Verif.Props.C29_owner"
   ],
   "note": ""
  },
  {
   "property": "C30",
   "status": "proved",
   "theorems": [
    "Verif.Props.C30_decode_iff",
    "Verif.Props.C30_roundtrip",
    "Verif.Props.C30_no_leftover",
    "Verif.Props.C30_injective",
    "Verif.Props.C30_execute",
    "Verif.Props.C30_text"
   ],
   "note": ""
  },
  {
   "property": "C31",
   "status": "partial",
   "theorems": [
    "Verif.Props.C31_whole",
    "Verif.Props.C31_chunked",
    "Verif.Props.C31_same_partial",
    "Verif.Props.C31_creators_partial",
    "Verif.Props.C31_order",
    "Verif.Props.C31_false"
   ],
   "note": "Same bytes for every split of the data and every type but Creators (C31_same_partial). For Creators the last Write clears the verified flags and a one-shot Allocate does not (C31_false, C31_creators_partial). Chunks after the first are not empty; declared length at most 10 MiB."
  },
  {
   "property": "C32",
   "status": "proved",
   "theorems": [
    "Verif.Props.C32_contents_unique",
    "Verif.Props.C32_get",
    "Verif.Props.C32_contains",
    "Verif.Props.C32_extension_get_agrees",
    "Verif.Props.C32_get_extensions",
    "Verif.Props.C32_last_extension",
    "Verif.Props.C32_first_extension",
    "Verif.Props.C32_unknown_listed",
    "Verif.Props.C32_unknown_found",
    "Verif.Props.C32_unknown_last"
   ],
   "note": ""
  },
  {
   "property": "C33",
   "status": "partial",
   "theorems": [
    "Verif.Props.C33_content_partial",
    "Verif.Props.C33_order_partial",
    "Verif.Props.C33_false"
   ],
   "note": "The entries survive, their order does not: C33_false; the actual order is first entry, then the rest reversed (C33_order_partial)."
  },
  {
   "property": "C34",
   "status": "partial",
   "theorems": [
    "Verif.Props.C34_bucket_partial",
    "Verif.Props.C34_source",
    "Verif.Props.C34_stored",
    "Verif.Props.C34_stored_partial",
    "Verif.Props.C34_royalties_rejected",
    "Verif.Props.C34_false_rejects",
    "Verif.Props.C34_false_accepts"
   ],
   "note": "False: the validation of a buffer starts at the extension header instead of its data (C34_false_rejects, C34_false_accepts). Proved: both ways are the same function for Bucket extensions; whenever an update from a buffer is accepted, the data of the buffer is stored exactly, except for one byte of each address of Creators data (C34_stored); royalties never pass (C34_royalties_rejected)."
  },
  {
   "property": "C35",
   "status": "partial",
   "theorems": [
    "Verif.Props.C35_toggle",
    "Verif.Props.C35_addresses",
    "Verif.Props.C35_custody_partial",
    "Verif.Props.C35_both_false",
    "Verif.Props.C35_stuck",
    "Verif.Props.C35_delegate_false",
    "Verif.Props.C35_from_creation_partial"
   ],
   "note": "Full for a single call (C35_toggle). The history theorem C35_custody_partial shows that the vault holds the asset while idle and the token while active, for an asset without manager roles that is not burned; the converse (not both) is false (C35_both_false, C35_stuck), and so is the need for the asset owner's signature (C35_delegate_false)."
  },
  {
   "property": "C36",
   "status": "partial",
   "theorems": [
    "Verif.Props.C36_update",
    "Verif.Props.C36_no_extension",
    "Verif.Props.C36_counter",
    "Verif.Props.C36_next",
    "Verif.Props.C36_written",
    "Verif.Props.C36_transfer_partial"
   ],
   "note": "Update: full, any content. Transfer: the counter is read and incremented by one on well-formed accounts (Stores); the increment wraps at the end of the signed 64-bit range, and rendered images are assumed shorter than 4294960000 bytes. The signature on a transfer may be that of the derived proxy signer. C36_written gives the bytes a transfer writes, C36_next the counter in two's complement."
  },
  {
   "property": "C37",
   "status": "partial",
   "theorems": [
    "Verif.Props.C37_forwards",
    "Verif.Props.C37_rejects",
    "Verif.Props.C37_complete_partial",
    "Verif.Props.C37_resize_false",
    "Verif.Props.C37_false"
   ],
   "note": "Forwarding is exact for what is forwarded (C37_forwards, C37_rejects). False as a whole: Resize is refused (C37_false, C37_resize_false); every other instruction is forwarded (C37_complete_partial)."
  },
  {
   "property": "C38",
   "status": "partial",
   "theorems": [
    "Verif.Props.C38_lists_active",
    "Verif.Props.C38_clients_agree",
    "Verif.Props.C38_reencode",
    "Verif.Props.C38_js_reencode_partial",
    "Verif.Props.C38_js_false",
    "Verif.Props.C38_js_encode",
    "Verif.Props.C38_key",
    "Verif.Props.C38_key_roundtrip"
   ],
   "note": "Rust client: proved. The JS client cannot encode the role list it decodes from a byte without roles (C38_js_false); C38_js_reencode_partial covers the rest."
  },
  {
   "property": "C39",
   "status": "partial",
   "theorems": [
    "Verif.Props.C39_refinement_partial",
    "Verif.Props.C39_deterministic"
   ],
   "note": "Well-formed accounts (Stores), histories without the two things the program gets wrong (Sound: Update of type None, Remove of an extension that is not the last). These two are shown to be needed by C24_none_type_corrupts and C25_false."
  },
  {
   "property": "C40",
   "status": "partial",
   "theorems": [
    "Verif.Props.C40_forwarded",
    "Verif.Props.C40_handover_partial",
    "Verif.Props.C40_false",
    "Verif.Props.C40_false_remove"
   ],
   "note": "False: the proxy program forwards every instruction but Update, Transfer and Create with the asset's signature, so a stranger can take over the authority (C40_false) or remove an extension and collect its rent (C40_false_remove). Proved: what is forwarded (C40_forwarded), and that a handover needs the authority's signature when the asset is not its own authority (C40_handover_partial)."
  },
  {
   "property": "C41",
   "status": "partial",
   "theorems": [
    "Verif.Props.C41_wellformed_partial",
    "Verif.Props.C41_asset_partial",
    "Verif.Props.C41_step_partial",
    "Verif.Props.C41_false"
   ],
   "note": "False in general: C41_false creates an asset with three extensions and removes the first. Proved from genesis for all histories of instructions used as intended (Proper): allocated extensions have a type and fit an account, Write stays within the announced length, updates have a type and take no Creators or Grouping data from a buffer, only the last extension is removed."
  },
  {
   "property": "C42",
   "status": "partial",
   "theorems": [
    "Verif.Props.C42_first",
    "Verif.Props.C42_signed_partial",
    "Verif.Props.C42_false",
    "Verif.Props.C42_burn_false"
   ],
   "note": "False in general: Update takes its data from a buffer that did not sign and overwrites it (C42_false), and the Burn of a forged member lowers the size kept in a buffer (C42_burn_false). Proved for every other position; the first account of every instruction is an asset or has signed (C42_first)."
  },
  {
   "property": "C43",
   "status": "proved",
   "theorems": [
    "Verif.Props.C43_mint",
    "Verif.Props.C43_packets"
   ],
   "note": "Packet sizes (C43_packets) need a name of at most 887 bytes; longer names do not fit an asset, which stores 35 bytes."
  },
  {
   "property": "C44",
   "status": "proved",
   "theorems": [
    "Verif.Props.C44_read",
    "Verif.Props.C44_minted",
    "Verif.Props.C44_long_string"
   ],
   "note": "Strings longer than 255 bytes are outside the statement; C44_long_string shows that they are stored wrongly. Parsing JSON text is not modelled."
  },
  {
   "property": "C45",
   "status": "partial",
   "theorems": [
    "Verif.Props.C45_allowlist_partial",
    "Verif.Props.C45_denylist_partial",
    "Verif.Props.C45_transfer_partial",
    "Verif.Props.C45_false"
   ],
   "note": "False: the client builds both lists on Account::Asset, so the listed recipient is refused and the denied one accepted (C45_false). Proved: exactly what the lists check instead, the asset's own address and program."
  },
  {
   "property": "C46",
   "status": "proved",
   "theorems": [
    "Verif.Props.C46_decodes",
    "Verif.Props.C46_accounts",
    "Verif.Props.C46_privileges",
    "Verif.Props.C46_sent",
    "Verif.Props.C46_proxied_refused"
   ],
   "note": "Assumes that the program's own account is not writable, that lamports fit 64 bits, and that the two signer flags left to the caller (authority of Create, payer of Resize) are set when these accounts sign."
  },
  {
   "property": "C47",
   "status": "proved",
   "theorems": [
    "Verif.Props.C47_created",
    "Verif.Props.C47_consent",
    "Verif.Props.C47_once",
    "Verif.Props.C47_flags_false"
   ],
   "note": "C47_created (vault, custody, mirrored token), C47_consent, C47_once; other vaults: the history theorem C35_custody_partial now allows any instruction of the bridge, including Create for other tokens, and C35_from_creation_partial starts it from a Create. The verified flags of the token's creators are not taken over (C47_flags_false)."
  },
  {
   "property": "C48",
   "status": "proved",
   "theorems": [
    "Verif.Props.C48_lock",
    "Verif.Props.C48_unlock",
    "Verif.Props.C48_approve",
    "Verif.Props.C48_revoke",
    "Verif.Props.C48_handover",
    "Verif.Props.C48_transfer",
    "Verif.Props.C48_burn",
    "Verif.Props.C48_verify",
    "Verif.Props.C48_group",
    "Verif.Props.C48_ungroup"
   ],
   "note": "Acceptance with the effect, as an equivalence for Lock, Unlock, Approve, Revoke, Handover, Group and Ungroup; sufficiency for Transfer, Burn, Verify and Unverify (the converses are C01, C07, C09, C20 and others)."
  },
  {
   "property": "C49",
   "status": "partial",
   "theorems": [
    "Verif.Props.C49_transfer_partial",
    "Verif.Props.C49_locked_group",
    "Verif.Props.C49_false",
    "Verif.Props.C49_false_royalties"
   ],
   "note": "False: C49_false (the owner of the group locks the group asset, and no member can be transferred or burned) and C49_false_royalties (an update of the royalties without data, which is not validated, makes every transfer panic). C49_transfer_partial proves it for readable royalties and an unlocked group; C49_locked_group shows that a locked group blocks all members."
  },
  {
   "property": "C50",
   "status": "partial",
   "theorems": [
    "Verif.Props.C50_create_iff",
    "Verif.Props.C50_update_iff",
    "Verif.Props.C50_fix",
    "Verif.Props.C50_created",
    "Verif.Props.C50_history_partial",
    "Verif.Props.C50_readers",
    "Verif.Props.C50_false"
   ],
   "note": "C50_create_iff, C50_update_iff and C50_readers are full equivalences between the validation hooks (resp. readers) and an independent grammar. C50_created covers every Create. The history theorem leaves out updates without data (C50_false: they store undecodable data unvalidated), updates from a buffer (C34), and what `Sound` excludes (C24, C25)."
  },
  {
   "property": "C51",
   "status": "proved",
   "theorems": [
    "Verif.Props.C51_rename",
    "Verif.Props.C51_update",
    "Verif.Props.C51_unacceptable",
    "Verif.Props.C51_remove",
    "Verif.Props.C51_remove_last",
    "Verif.Props.C51_resize",
    "Verif.Props.C51_false",
    "Verif.Props.C51_update_aligned"
   ],
   "note": "C51_update leaves alignment aside; C51_update_aligned has it, for data as the builders make it."
  },
  {
   "property": "C52",
   "status": "proved",
   "theorems": [
    "Verif.Props.C52_mint"
   ],
   "note": "Success of every instruction, the asset stored at the end, the lamports and the untouched accounts. Network fees are outside the model. A proxied asset is a derived address, which signs only through its program; that the asset signs is what the account metas ask for."
  },
  {
   "property": "C53",
   "status": "proved",
   "theorems": [
    "Verif.Props.C53_create",
    "Verif.Props.C53_vault_blocked",
    "Verif.Props.C53_asset_blocked",
    "Verif.Props.C53_account_blocked",
    "Verif.Props.C53_false"
   ],
   "note": "C53_create is the positive statement with the condition that both addresses hold no lamports; C53_vault_blocked, C53_asset_blocked and C53_account_blocked show that the condition is needed, and C53_false is a witness. The addresses are those found by find_program_address and are assumed to differ from each other and from the payer."
  },
  {
   "property": "C54",
   "status": "partial",
   "theorems": [
    "Verif.Props.C54_shows_partial",
    "Verif.Props.C54_get_partial",
    "Verif.Props.C54_life_partial",
    "Verif.Props.C54_name",
    "Verif.Props.C54_stub_throws",
    "Verif.Props.C54_unknown",
    "Verif.Props.C54_only",
    "Verif.Props.C54_false"
   ],
   "note": "Proved for data of today's form (Metadata with four strings, Grouping with a delegate, selectors 0 to 2, booleans 0 or 1) and accounts without a stub of 1 to 15 bytes after the last extension; C54_stub_throws and C54_false show that the client throws or shows something else otherwise."
  },
  {
   "property": "C55",
   "status": "proved",
   "theorems": [
    "Verif.Props.C55_bytes",
    "Verif.Props.C55_creators",
    "Verif.Props.C55_read",
    "Verif.Props.C55_round_trip",
    "Verif.Props.C55_refused"
   ],
   "note": ""
  },
  {
   "property": "C56",
   "status": "proved",
   "theorems": [
    "Verif.Props.C56_mint",
    "Verif.Props.C56_live",
    "Verif.Props.C56_no_payer"
   ],
   "note": ""
  },
  {
   "property": "C57",
   "status": "partial",
   "theorems": [
    "Verif.Props.C57_stored_partial",
    "Verif.Props.C57_creators",
    "Verif.Props.C57_closed",
    "Verif.Props.C57_royalties",
    "Verif.Props.C57_inline",
    "Verif.Props.C57_shown_partial",
    "Verif.Props.C57_no_payer",
    "Verif.Props.C57_false",
    "Verif.Props.C57_false_royalties"
   ],
   "note": "False for long lists of creators, whose addresses are stored with one byte changed (C57_false), and for long royalties, which are always rejected (C57_royalties, C57_false_royalties). Without an explicit payer the chunked update always fails (C57_no_payer). Proved for all other types; C57_shown_partial leaves out Creators and Grouping, whose books the program keeps. The proxy option of the client is the subject of C60."
  },
  {
   "property": "C58",
   "status": "proved",
   "theorems": [
    "Verif.Props.C58_data",
    "Verif.Props.C58_decoded",
    "Verif.Props.C58_updated",
    "Verif.Props.C58_reserved",
    "Verif.Props.C58_cpi",
    "Verif.Props.C58_calls",
    "Verif.Props.C58_stored",
    "Verif.Props.C58_size",
    "Verif.Props.C58_limit",
    "Verif.Props.C58_accounts",
    "Verif.Props.C58_cpi_accounts",
    "Verif.Props.C58_own_count_false"
   ],
   "note": "C58_limit: every call is within the limit of 1280 bytes as the runtime counts (34 bytes per account, and the data). As the macro itself counts, with 4 more bytes for a prefix, a full Write has 1284 bytes (C58_size, C58_own_count_false), which does no harm. C58_accounts, C58_cpi_accounts: the accounts handed over suffice."
  },
  {
   "property": "C59",
   "status": "proved",
   "theorems": [
    "Verif.Props.C59_data",
    "Verif.Props.C59_accounts",
    "Verif.Props.C59_built",
    "Verif.Props.C59_decodes",
    "Verif.Props.C59_meant",
    "Verif.Props.C59_sent",
    "Verif.Props.C59_allocate",
    "Verif.Props.C59_write",
    "Verif.Props.C59_create"
   ],
   "note": ""
  },
  {
   "property": "C60",
   "status": "partial",
   "theorems": [
    "Verif.Props.C60_seen",
    "Verif.Props.C60_same",
    "Verif.Props.C60_passed_on_partial",
    "Verif.Props.C60_burn_refused",
    "Verif.Props.C60_burn",
    "Verif.Props.C60_resize_refused",
    "Verif.Props.C60_extension_ignored",
    "Verif.Props.C60_buffer_refused",
    "Verif.Props.C60_false"
   ],
   "note": "False for Burn: an account left out is the id of the proxy program, which the asset program takes for an account, so that a Burn without recipient always fails (C60_burn_refused, C60_false); for Resize, which the interface refuses (C60_resize_refused); for extensions, which the proxy program ignores (C60_extension_ignored); and for updateWithBuffer, whose buffer is allocated through the proxy program, which refuses it (C60_buffer_refused). Proved for all instructions that are passed on (C60_passed_on_partial, C60_seen, C60_same) and for Burn with a recipient (C60_burn); Transfer and Update are handled by the proxy program (C36)."
  },
  {
   "property": "C61",
   "status": "proved",
   "theorems": [
    "Verif.Props.C61_data",
    "Verif.Props.C61_metas",
    "Verif.Props.C61_invoked",
    "Verif.Props.C61_unsigned_refused",
    "Verif.Props.C61_forwarded"
   ],
   "note": ""
  },
  {
   "property": "C62",
   "status": "proved",
   "theorems": [
    "Verif.Props.C62_meant",
    "Verif.Props.C62_privileges",
    "Verif.Props.C62_writable",
    "Verif.Props.C62_js_bridge",
    "Verif.Props.C62_js_create",
    "Verif.Props.C62_found",
    "Verif.Props.C62_seeds",
    "Verif.Props.C62_vault",
    "Verif.Props.C62_described_seeds_false"
   ],
   "note": ""
  },
  {
   "property": "C63",
   "status": "proved",
   "theorems": [
    "Verif.Props.C63_accepted",
    "Verif.Props.C63_needed",
    "Verif.Props.C63_iff",
    "Verif.Props.C63_client"
   ],
   "note": ""
  },
  {
   "property": "C64",
   "status": "proved",
   "theorems": [
    "Verif.Props.C64_data",
    "Verif.Props.C64_apart",
    "Verif.Props.C64_created",
    "Verif.Props.C64_served",
    "Verif.Props.C64_accepted",
    "Verif.Props.C64_payer",
    "Verif.Props.C64_meant",
    "Verif.Props.C64_privileges",
    "Verif.Props.C64_js",
    "Verif.Props.C64_js_payer"
   ],
   "note": "C64_created (what a successful Create means), C64_served (what the program finds afterwards), C64_accepted (acceptance), C64_payer, C64_data and C64_apart (instruction data), C64_meant/C64_privileges/C64_js (JavaScript client). C64_js_payer proves the defect that the client's missing default for the payer makes every such creation fail."
  },
  {
   "property": "C65",
   "status": "partial",
   "theorems": [
    "Verif.Props.C65_signers",
    "Verif.Props.C65_anyone",
    "Verif.Props.C65_held",
    "Verif.Props.C65_permanent",
    "Verif.Props.C65_joined_partial",
    "Verif.Props.C65_released",
    "Verif.Props.C65_false"
   ],
   "note": "False of the code. C65_anyone constructs, for every stored asset outside a group that is not proxied, the three calls of a stranger (C65_signers: nobody else signs) that take it into a locked group; C65_held and C65_permanent show that an asset without royalties of its own then stays with its owner in every history in which neither the stranger nor the authority signs; C65_released: the authority can take it out. C65_false is the concrete case. C65_joined_partial states who can add an asset to a group."
  },
  {
   "property": "C66",
   "status": "partial",
   "theorems": [
    "Verif.Props.C66_transfer_partial",
    "Verif.Props.C66_created",
    "Verif.Props.C66_chain_partial",
    "Verif.Props.C66_grouped",
    "Verif.Props.C66_false"
   ],
   "note": "Proved for assets outside groups, for fewer than 10^12 transfers and pictures of constant length (C66_transfer_partial, C66_chain_partial, starting from C66_created). False for assets in groups: C66_grouped (every such asset without royalties of its own), C66_false (a stranger brings a new asset into a group through the proxy program, and the owner cannot transfer it any more)."
  },
  {
   "property": "C67",
   "status": "proved",
   "theorems": [
    "Verif.Props.C67_transfer",
    "Verif.Props.C67_burn",
    "Verif.Props.C67_verify",
    "Verif.Props.C67_close"
   ],
   "note": ""
  },
  {
   "property": "C68",
   "status": "partial",
   "theorems": [
    "Verif.Props.C68_admitted_partial",
    "Verif.Props.C68_anyone",
    "Verif.Props.C68_shrink",
    "Verif.Props.C68_drain",
    "Verif.Props.C68_stuck",
    "Verif.Props.C68_false"
   ],
   "note": "False as stated (C68_false): Write does not bound the data by the announced length, so a buffer can be given an extension header that leads the next Allocate back to the beginning of the account, where it writes a complete asset. C68_anyone: anybody makes a member of any group, as its delegate with all roles. C68_shrink, C68_drain: burning such members takes the recorded size of any unlocked group to zero at no cost; C68_stuck: then no genuine member can be burned any more. C68_admitted_partial: the claim for all histories of instructions used as intended (Proper)."
  },
  {
   "property": "C69",
   "status": "partial",
   "theorems": [
    "Verif.Props.C69_anything",
    "Verif.Props.C69_signers",
    "Verif.Props.C69_counterfeit",
    "Verif.Props.C69_copy",
    "Verif.Props.C69_perfect",
    "Verif.Props.C69_perfect_signers",
    "Verif.Props.C69_created_partial",
    "Verif.Props.C69_standard_partial",
    "Verif.Props.C69_false"
   ],
   "note": "False as stated (C69_false): Allocate, Write, Allocate on one unused account make an initialised asset without Create. C69_anything: with any content after the first 16 bytes; C69_signers: signed by nobody but the account and the payer; C69_counterfeit, C69_copy: any group, authority, delegate, name and extensions, including verified creators, and copies of existing assets; C69_perfect, C69_perfect_signers: with one transfer after it, a copy of any unlocked immutable non-fungible asset without delegate that differs from the original in nothing but the owner, which is any wallet. C69_created_partial, C69_standard_partial: the claim for all histories of instructions used as intended (Proper)."
  },
  {
   "property": "C70",
   "status": "partial",
   "theorems": [
    "Verif.Props.C70_askable",
    "Verif.Props.C70_exact",
    "Verif.Props.C70_assets_partial",
    "Verif.Props.C70_all_or_nothing",
    "Verif.Props.C70_search_partial",
    "Verif.Props.C70_shown",
    "Verif.Props.C70_unfinished",
    "Verif.Props.C70_break",
    "Verif.Props.C70_vault",
    "Verif.Props.C70_vault_read",
    "Verif.Props.C70_false"
   ],
   "note": "The filters are exact (C70_exact for every stored asset; C70_vault, C70_vault_read for vaults), but the search is all or nothing (C70_all_or_nothing): it throws if one of the accounts found cannot be read. C70_false, C70_break: anybody can create an asset for any owner and make it one byte longer with Resize; then nobody can list the assets of that owner. C70_unfinished: without the discriminator among the fields, accounts of mints under way are found, and the search throws. C70_assets_partial, C70_search_partial: the claim for ledgers made by instructions used as intended whose assets the client can read."
  },
  {
   "property": "C71",
   "status": "partial",
   "theorems": [
    "Verif.Props.C71_typed",
    "Verif.Props.C71_absent",
    "Verif.Props.C71_built",
    "Verif.Props.C71_boolean_as_number",
    "Verif.Props.C71_number_as_boolean",
    "Verif.Props.C71_undefined",
    "Verif.Props.C71_remove",
    "Verif.Props.C71_remove_stays",
    "Verif.Props.C71_false"
   ],
   "note": "False as stated (C71_false): get::<T> casts the value without looking at its type. C71_boolean_as_number: a boolean asked for as a number is the boolean with the seven bytes after it, also beyond the end of the account; C71_number_as_boolean; C71_undefined: the other confusions, and a stored boolean other than 0 and 1 (which the program accepts), have no defined result. C71_remove_stays: remove changes the vector, not the account. C71_typed, C71_absent, C71_built, C71_remove: the claim for the right type."
  },
  {
   "property": "C72",
   "status": "partial",
   "theorems": [
    "Verif.Props.C72_header",
    "Verif.Props.C72_stored",
    "Verif.Props.C72_pairs",
    "Verif.Props.C72_pairs_lenient",
    "Verif.Props.C72_pairs_same",
    "Verif.Props.C72_blob",
    "Verif.Props.C72_bucket",
    "Verif.Props.C72_creators",
    "Verif.Props.C72_grouping",
    "Verif.Props.C72_manager",
    "Verif.Props.C72_proxy",
    "Verif.Props.C72_metadata",
    "Verif.Props.C72_false"
   ],
   "note": "False as stated (C72_false): the client does not read Metadata without a fourth text nor Grouping without a delegate, which the program accepts; of texts that are not UTF-8 it reads nothing, or only those before. C72_header and C72_stored: the header, exactly. C72_pairs, C72_pairs_lenient, C72_pairs_same, C72_blob, C72_bucket, C72_creators, C72_grouping, C72_manager, C72_proxy, C72_metadata: for each type the exact condition and the agreement. The behaviour of kaigan's RemainderVec at a value it cannot read is left open (parameter strict)."
  },
  {
   "property": "C73",
   "status": "partial",
   "theorems": [
    "Verif.Props.C73_order",
    "Verif.Props.C73_built",
    "Verif.Props.C73_create_partial",
    "Verif.Props.C73_same",
    "Verif.Props.C73_two",
    "Verif.Props.C73_live",
    "Verif.Props.C73_update",
    "Verif.Props.C73_title",
    "Verif.Props.C73_allocate",
    "Verif.Props.C73_false"
   ],
   "note": "C73_create_partial: the asset shown after a successful create is the one asked for with its extensions in the order first, last, ..., second (C73_order); with at most two extensions that is the order given (C73_two). The claim about the order is false for three: C73_false. Liveness: C73_live (with a payer, without a group). Updates: C73_update, C73_title; verified flags and the size of a group are the program's (SameButBooks)."
  },
  {
   "property": "C74",
   "status": "proved",
   "theorems": [
    "Verif.Props.C74_solvent",
    "Verif.Props.C74_supply",
    "Verif.Props.C74_history",
    "Verif.Props.C74_tight",
    "Verif.Props.C74_exact"
   ],
   "note": ""
  },
  {
   "property": "C75",
   "status": "partial",
   "theorems": [
    "Verif.Props.C75_plain",
    "Verif.Props.C75_safe_partial",
    "Verif.Props.C75_history_partial",
    "Verif.Props.C75_false",
    "Verif.Props.C75_stale"
   ],
   "note": "Proved for well-formed ledgers, for instructions that do not name the type None and carry less than 1 GiB, and for every history of proper steps; for instructions other than Write, Update and Remove without conditions. Refuted in general: Remove of type None on an asset with spare bytes moves the account's content past its end (C75_false), and so does an update after the removal of an earlier extension (C75_stale)."
  },
  {
   "property": "C76",
   "status": "partial",
   "theorems": [
    "Verif.Props.C76_agrees",
    "Verif.Props.C76_safe_partial",
    "Verif.Props.C76_overwrite",
    "Verif.Props.C76_steal",
    "Verif.Props.C76_theft",
    "Verif.Props.C76_false"
   ],
   "note": "Proved for every instruction that moves nothing past the data of its accounts (C76_agrees), hence after every history of proper steps when the type None is not named (C76_safe_partial). Refuted in general: Remove of type None overwrites the data of any account of the program that is passed as a further account (C76_overwrite, C76_steal), and anybody can do so by minting an asset of their own and extending it (C76_theft, C76_false)."
  },
  {
   "property": "C77",
   "status": "partial",
   "theorems": [
    "Verif.Props.C77_step_partial",
    "Verif.Props.C77_history_partial",
    "Verif.Props.C77_kept_partial",
    "Verif.Props.C77_funds_partial",
    "Verif.Props.C77_owner_partial",
    "Verif.Props.C77_false"
   ],
   "note": "Proved for all instructions, account lists and histories in the model in which every access stays inside the data of the account it is meant for (no conditions on the instructions of strangers). Refuted at the level of memory by (49): C77_false, after C76_theft. C77_owner_partial leaves out the removals and updates that the program gets wrong (`Sound`)."
  },
  {
   "property": "C78",
   "status": "partial",
   "theorems": [
    "Verif.Props.C78_forward_partial",
    "Verif.Props.C78_overwrite",
    "Verif.Props.C78_theft",
    "Verif.Props.C78_false"
   ],
   "note": "Proved when the extension found does not end before it starts (C78_forward_partial; this is the check that remove.rs lacks). Refuted in general: C78_theft takes any asset with three steps (mint, remove metadata, remove attributes) of which none names the type None; C78_false is a concrete case."
  },
  {
   "property": "C79",
   "status": "partial",
   "theorems": [
    "Verif.Props.C79_reach_partial",
    "Verif.Props.C79_data_partial",
    "Verif.Props.C79_strangers_partial",
    "Verif.Props.C79_history_partial",
    "Verif.Props.C79_false"
   ],
   "note": "Refuted for Remove (C79_false, after C76_false). Proved for all other instructions with any contents of the accounts (data of the instruction up to 10 KiB, accounts up to 10 MiB, altogether less than 1 GiB), and for those removals that the rest of the model does not refuse with `oob`; an Update from a buffer may also change the account of the authority that signs it. C79_strangers_partial and C79_history_partial carry C77 over to the memory of the program."
  },
  {
   "property": "C80",
   "status": "partial",
   "theorems": [
    "Verif.Props.C80_truthful_partial",
    "Verif.Props.C80_reason",
    "Verif.Props.C80_alignment",
    "Verif.Props.C80_returned",
    "Verif.Props.C80_custom",
    "Verif.Props.C80_agreed",
    "Verif.Props.C80_only",
    "Verif.Props.C80_shown_partial",
    "Verif.Props.C80_foreign",
    "Verif.Props.C80_false"
   ],
   "note": "C80_false: Remove answers ExtensionNotFound for an extension without data that ends the account. Everything else is as claimed; the reasons speak about accounts that store an asset in the normal form (packed extensions). Coarse reasons: ExtensionDataInvalid of Create and Write and of an Update from a buffer, and the errors Create passes on from allocating its extensions (only that there are any). C80_alignment: InvalidAlignment is never returned. C80_foreign: clients of the bridge and the proxy misread the codes 0 and 1 of the asset program."
  },
  {
   "property": "C81",
   "status": "partial",
   "theorems": [
    "Verif.Props.C81_exact",
    "Verif.Props.C81_missing",
    "Verif.Props.C81_crash",
    "Verif.Props.C81_embedded",
    "Verif.Props.C81_kind",
    "Verif.Props.C81_false"
   ],
   "note": "C81_exact, C81_embedded, C81_missing and C81_kind hold without restriction. The part 'otherwise it reports that there is none' is false (C81_false): a section of the two names that cannot be read makes the reader panic instead of returning its error. C81_crash says that this is the only cause of a panic."
  },
  {
   "property": "C82",
   "status": "proved",
   "theorems": [
    "Verif.Props.C82_build",
    "Verif.Props.C82_read",
    "Verif.Props.C82_only",
    "Verif.Props.C82_defaults",
    "Verif.Props.C82_contents",
    "Verif.Props.C82_same_tables",
    "Verif.Props.C82_interface",
    "Verif.Props.C82_bridge",
    "Verif.Props.C82_proxy",
    "Verif.Props.C82_incomplete"
   ],
   "note": "For instructions of the asset program in both directions (C82_build, C82_read, C82_only, C82_defaults). Extension data: Attributes, Blob, Creators, Links, Metadata and Bucket (C82_contents); C82_incomplete proves that the description does not lay out the other five types and the asset account at all. Interface: the accounts (C82_interface; its argument types link to types that are not in the file). For choices of signer that a Shank file cannot express (Create, Resize, the bridge's Create) the case without signature is covered. The meaning of Codama nodes is trusted."
  },
  {
   "property": "C83",
   "status": "partial",
   "theorems": [
    "Verif.Props.C83_builder",
    "Verif.Props.C83_cpi",
    "Verif.Props.C83_panic",
    "Verif.Props.C83_unique",
    "Verif.Props.C83_same_partial",
    "Verif.Props.C83_back_partial",
    "Verif.Props.C83_infos",
    "Verif.Props.C83_invoke",
    "Verif.Props.C83_refused",
    "Verif.Props.C83_run_partial",
    "Verif.Props.C83_bridge_builder",
    "Verif.Props.C83_bridge_cpi",
    "Verif.Props.C83_bridge_infos",
    "Verif.Props.C83_write_false",
    "Verif.Props.C83_flags_false"
   ],
   "note": "C83_builder, C83_cpi, C83_panic, C83_infos and C83_invoke are exact for both builders. The two agree only if the accounts added by hand have equal flags, because the flags are exchanged on the way (C83_flags_false, C83_refused), and if the system program of Write is set (C83_write_false). C83_bridge_builder, C83_bridge_cpi and C83_bridge_infos say the same of the bridge client, whose calls from programs need every program set."
  },
  {
   "property": "C84",
   "status": "partial",
   "theorems": [
    "Verif.Props.C84_js_partial",
    "Verif.Props.C84_count",
    "Verif.Props.C84_rust",
    "Verif.Props.C84_types",
    "Verif.Props.C84_proxy",
    "Verif.Props.C84_bridge"
   ],
   "note": "C84_js_partial covers 119 of the 120 tests of the JavaScript client. The one left out (update_12, a blob of 10500 bytes) passes when evaluated (#guard in Tests/JsUpdate.lean) and is too long for the kernel. C84_rust, C84_types, C84_proxy and C84_bridge cover all their tests. The images some tests download are replaced by 900 bytes; in the tests of the bridge, Token Metadata is a stand-in that keeps who holds a token, and assertions about frozen token accounts are left out."
  },
  {
   "property": "C85",
   "status": "partial",
   "theorems": [
    "Verif.Props.C85_exists_partial",
    "Verif.Props.C85_signers",
    "Verif.Props.C85_anyone",
    "Verif.Props.C85_stuck",
    "Verif.Props.C85_forever",
    "Verif.Props.C85_false"
   ],
   "note": "False for every asset outside a group that is not proxied: C85_anyone constructs the seven calls of a stranger (C85_signers: nobody else signs; C85_anyone: it costs nothing but fees) after which the asset is in a group that does not exist. C85_stuck: it can then not be burned, taken out or, without royalties of its own, transferred. C85_forever: if it is immutable, this remains so in every history in which the key of the lost group does not sign, even if owner and authority do. C85_false: a concrete case from genesis. Proved: the claim for histories of instructions used as intended (C85_exists_partial)."
  },
  {
   "property": "C86",
   "status": "partial",
   "theorems": [
    "Verif.Props.C86_loop",
    "Verif.Props.C86_read",
    "Verif.Props.C86_payload",
    "Verif.Props.C86_steady_partial",
    "Verif.Props.C86_history_partial",
    "Verif.Props.C86_client",
    "Verif.Props.C86_hang",
    "Verif.Props.C86_spare",
    "Verif.Props.C86_false",
    "Verif.Props.C86_spare_false"
   ],
   "note": "False: the boundary of an extension of 2^32 - 16 bytes wraps around to its own offset, and the next Allocate or Write on the account never ends (C86_false); an update with data of the same length never ends on an asset with 16 spare zeros if bytes 4 to 7 of the owner's address are zero (C86_spare for all such assets, C86_spare_false concretely); anybody can make an asset that neither the Rust nor the TypeScript client ever finishes to read (C86_hang). Proved: which accounts are read in the end (C86_loop, an equivalence; C86_read, C86_client), that checking the data of one extension always ends (C86_payload), and that instructions used as intended end (C86_steady_partial, C86_history_partial). That the real machine stops such a loop when the compute budget is used up is not part of the model."
  },
  {
   "property": "C87",
   "status": "proved",
   "theorems": [
    "Verif.Props.C87_local",
    "Verif.Props.C87_diamond",
    "Verif.Props.C87_order",
    "Verif.Props.C87_schedule",
    "Verif.Props.C87_needed"
   ],
   "note": "C87_local: nothing else is read or written; C87_diamond: two instructions neither of which changes an account of the other commute; C87_order and C87_schedule: so do instructions that share only read-only accounts, for two and for any number; C87_needed: two that write the same account do not. About runs in the model, where an access outside the data of an account stops; for what the real machine does in such a case see C75 and C76."
  },
  {
   "property": "C88",
   "status": "proved",
   "theorems": [
    "Verif.Props.C88_more",
    "Verif.Props.C88_named",
    "Verif.Props.C88_asked",
    "Verif.Props.C88_needed"
   ],
   "note": "C88_more and C88_named: more privileges, and privileges elsewhere; C88_asked: the signatures in `askedFor` and `askedIfProxied` are enough (for lamports that add up to less than 2^64, as in C27, since the runtime asks for the signature of whoever is debited); C88_needed: a transfer without the one it asks for is refused. `askedFor` lists who may be asked: a payer who does not have to pay is not."
  },
  {
   "property": "C89",
   "status": "partial",
   "theorems": [
    "Verif.Props.C89_twice_partial",
    "Verif.Props.C89_record_partial",
    "Verif.Props.C89_allocate_partial",
    "Verif.Props.C89_write_false",
    "Verif.Props.C89_resize_false",
    "Verif.Props.C89_buffer_false"
   ],
   "note": "False: C89_write_false (a chunk is appended twice and completes the extension with wrong data), C89_resize_false (an account is extended twice), C89_buffer_false (the first Update from a buffer overwrites the type in the buffer, so the second adds an Attributes extension). True: C89_twice_partial (the 11 instructions that do not touch extensions or build up an account, on any ledger), C89_record_partial (every instruction on a stored asset, except for updates from a buffer, updates of type None and removal of an extension that is not the last), C89_allocate_partial (a second Allocate is refused)."
  },
  {
   "property": "C90",
   "status": "partial",
   "theorems": [
    "Verif.Props.C90_stored",
    "Verif.Props.C90_update_partial",
    "Verif.Props.C90_unnamed_partial",
    "Verif.Props.C90_address",
    "Verif.Props.C90_safe",
    "Verif.Props.C90_others",
    "Verif.Props.C90_group_false",
    "Verif.Props.C90_royalties_false",
    "Verif.Props.C90_number_false"
   ],
   "note": "False: C90_group_false, C90_royalties_false (an Update with data for a group or royalties and a new name panics unless the lengths add up to a multiple of 8), C90_number_false (the number of a property is read through an unaligned reference). True: C90_stored (all views in packed accounts), C90_update_partial (the exact condition for an Update), C90_unnamed_partial (Updates without a new name), C90_others, C90_safe (what succeeds with the panics succeeds without them). The model of the heap and of the input of a program is in the trusted base."
  },
  {
   "property": "C91",
   "status": "partial",
   "theorems": [
    "Verif.Props.C91_lock",
    "Verif.Props.C91_unlock",
    "Verif.Props.C91_handover",
    "Verif.Props.C91_approve_partial",
    "Verif.Props.C91_transfer_partial",
    "Verif.Props.C91_group",
    "Verif.Props.C91_verify_partial",
    "Verif.Props.C91_rename",
    "Verif.Props.C91_add",
    "Verif.Props.C91_replace_partial",
    "Verif.Props.C91_transfer_false",
    "Verif.Props.C91_approve_false",
    "Verif.Props.C91_verify_false",
    "Verif.Props.C91_creators_false"
   ],
   "note": "False: C91_transfer_false (the delegate is lost), C91_approve_false (the delegate before is lost), C91_verify_false (the creator was verified before), C91_creators_false (the authority, left out and brought back, is verified). True: C91_lock, C91_unlock, C91_handover, and for assets without delegate C91_approve_partial and C91_transfer_partial (the whole ledger is as before); C91_group, C91_rename, C91_add, C91_verify_partial and C91_replace_partial (not Creators) (the record is as before)."
  },
  {
   "property": "C92",
   "status": "partial",
   "theorems": [
    "Verif.Props.C92_steady_partial",
    "Verif.Props.C92_short",
    "Verif.Props.C92_short_false",
    "Verif.Props.C92_group_false",
    "Verif.Props.C92_data_false",
    "Verif.Props.C92_boundary_false",
    "Verif.Props.C92_selector_false"
   ],
   "note": "False: C92_short (accounts of one or two bytes make every instruction panic), C92_group_false, C92_data_false, C92_boundary_false, C92_selector_false. True (C92_steady_partial): all instructions, whoever sends them, when the accounts of the program that are named are assets with readable data or no assets (empty or at least three bytes), buffers are in order and the data brought along can be read; not for updates from a buffer, updates of assets with room behind the extensions, or burning with a group account that is no asset."
  },
  {
   "property": "C93",
   "status": "partial",
   "theorems": [
    "Verif.Props.C93_reads",
    "Verif.Props.C93_one",
    "Verif.Props.C93_royalties",
    "Verif.Props.C93_gate",
    "Verif.Props.C93_built",
    "Verif.Props.C93_shortest",
    "Verif.Props.C93_false"
   ],
   "note": "The grammar is Spec/Saying. True: C93_reads (exactly what the grammar says is read), C93_one (one reading, no prefixes), C93_royalties (which data of royalties is accepted), C93_gate (transfers obey what the royalties say), C93_built and C93_shortest (the builders' way is the only shortest one). False: C93_false, a constraint can be said in several ways, since bytes behind the operand of a negation and in an empty operator are not looked at."
  },
  {
   "property": "C94",
   "status": "partial",
   "theorems": [
    "Verif.Props.C94_owner_partial",
    "Verif.Props.C94_authority_partial",
    "Verif.Props.C94_delegate_partial",
    "Verif.Props.C94_locked_partial",
    "Verif.Props.C94_verified_partial",
    "Verif.Props.C94_data_partial",
    "Verif.Props.C94_anyone",
    "Verif.Props.C94_false"
   ],
   "note": "True as long as the instructions are used as intended (ProperSteps): C94_owner_partial, C94_authority_partial, C94_delegate_partial, C94_locked_partial, C94_verified_partial and C94_data_partial; each names the instruction, who signed it, and that it has held ever since. False in general: C94_false and C94_anyone, assets can be forged with any authority and delegate by Allocate and Write."
  },
  {
   "property": "C95",
   "status": "partial",
   "theorems": [
    "Verif.Props.C95_open",
    "Verif.Props.C95_closed_partial",
    "Verif.Props.C95_unlock_partial",
    "Verif.Props.C95_forever",
    "Verif.Props.C95_blank_partial",
    "Verif.Props.C95_anyone",
    "Verif.Props.C95_repair",
    "Verif.Props.C95_false"
   ],
   "note": "False: C95_false and C95_anyone. An Update without data adds an empty Manager extension to any asset (the check that only existing managers are updated is part of the validation, which is skipped), after which Unlock panics for everybody. Done to a locked asset, together with making it immutable, nobody will ever unlock, move or burn it, whatever anybody does (C95_forever, no restriction on the history); if it stays mutable the same holds for all histories without Update of type None and Remove of an extension that is not the last (C95_blank_partial). True: C95_open (exactly which assets can be unlocked when everybody signs), C95_unlock_partial (assets without Manager extension, by their delegate or owner), C95_closed_partial (otherwise it was an Update of the Manager extension by the authority, while the asset was locked), C95_repair (while the manager can be read and the asset is mutable, the authority can have it unlocked). The _partial theorems are about histories of instructions used as intended (ProperSteps)."
  },
  {
   "property": "C96",
   "status": "partial",
   "theorems": [
    "Verif.Props.C96_burn_partial",
    "Verif.Props.C96_history_partial",
    "Verif.Props.C96_cause_partial",
    "Verif.Props.C96_forever",
    "Verif.Props.C96_anyone",
    "Verif.Props.C96_false"
   ],
   "note": "False: C96_anyone and C96_false. An Update without data gives any asset that is not immutable an empty Grouping extension (validation is skipped), which Burn cannot read. Done together with making the asset immutable, it is never burned, whatever anybody does; if it has empty royalties too, it never changes hands either (C96_forever, no restriction on the history; C96_false is an asset of this kind). True: C96_burn_partial (the owner's burn is accepted, empties the account and pays the rent to the named recipient, also if the Manager extension cannot be read; it assumes that the Grouping data can be read, that the other accounts given are calm, and that the recipient is another, writable account whose balance does not overflow), C96_cause_partial (Grouping data that cannot be read comes from an Update signed by the authority of an asset that was not immutable, in histories of instructions used as intended). Assets in a group are not covered here; see C65 and C85. C96_history_partial: after every history of the asset without updates without data or from a buffer, starting with extensions that can all be read, the burn is accepted without assuming that the Grouping data can be read."
  },
  {
   "property": "C97",
   "status": "partial",
   "theorems": [
    "Verif.Props.C97_same_partial",
    "Verif.Props.C97_reuse",
    "Verif.Props.C97_false"
   ],
   "note": "False: C97_false. Burning gives the account back to the system program and keeps no mark, so whoever holds the key of the address can create another asset there: an immutable soulbound asset of one wallet is followed by a mutable one that belongs to another. C97_reuse: every Create that can be paid for and fits is accepted at a burned address. True: C97_same_partial (two assets seen at one address are the same one, alive in between and of the same standard, unless the first was burned by its owner or burn delegate, who signed, and the key of the address signed a Create afterwards; ProperSteps from a well-formed ledger)."
  },
  {
   "property": "C98",
   "status": "partial",
   "theorems": [
    "Verif.Props.C98_forever",
    "Verif.Props.C98_members_partial",
    "Verif.Props.C98_anyone",
    "Verif.Props.C98_leave_partial",
    "Verif.Props.C98_history_partial",
    "Verif.Props.C98_false"
   ],
   "note": "False: C98_anyone and C98_false. The authority of a group that is not immutable can empty the data of the group with an Update without data, even if the group has members, and make it immutable with the same instruction. Neither Ungroup nor Burn of a member can read the group then: the members stay in it and are never burned (C98_forever: immutable members, whatever anybody does; C98_members_partial: all members, as long as the instructions are used as intended, ProperSteps). True: C98_leave_partial (Ungroup is accepted from the authority or the delegate of the group while its data can be read). Burning of members under the same condition is C67_burn; groups of strangers and lost groups are C65 and C85. C98_history_partial: after every history of the group without updates without data or from a buffer, its authority can let every member go."
  }
 ]
}
